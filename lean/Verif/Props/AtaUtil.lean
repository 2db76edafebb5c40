import Verif.Model.AtaUtil
import Verif.Spec.AtaUtil
import Verif.Props.Utils
import Verif.Props.Identity
/-!
# ata_util (C54, C55, C56, C81)
-/
namespace Dparm
open Spec

/-! ## C54 -/

theorem fixLoop_even : ∀ s : Bytes, s.length % 2 = 0 →
    ∃ sw p, PairSwapped s sw ∧ BeforeNul sw p ∧ fixLoop s = .ret p
  | [], _ => ⟨[], [], ⟨rfl, by intro i h; simp at h⟩, ⟨by simp, Or.inl rfl⟩, rfl⟩
  | [_], h => by simp at h
  | a :: b :: rest, h => by
    obtain ⟨sw, p, h1, h2, h3⟩ := fixLoop_even rest (by simp only [List.length_cons] at h; omega)
    refine ⟨b :: a :: sw, ?_⟩
    have hsw : PairSwapped (a :: b :: rest) (b :: a :: sw) := by
      refine ⟨by simp [h1.1], ?_⟩
      intro i hi
      cases i with
      | zero => simp
      | succ i =>
        have e : 2 * (i + 1) = 2 * i + 1 + 1 := by omega
        rw [e]
        simp only [List.getElem?_cons_succ]
        exact h1.2 i (by simp only [List.length_cons] at hi; omega)
    unfold fixLoop
    by_cases hb : b = 0#8
    · rw [if_pos hb]
      exact ⟨[], hsw, ⟨by simp, Or.inr ⟨a :: sw, by rw [hb]; rfl⟩⟩, rfl⟩
    · rw [if_neg hb]
      by_cases ha : a = 0#8
      · rw [if_pos ha]
        refine ⟨[b], hsw, ⟨?_, Or.inr ⟨sw, by rw [ha]; rfl⟩⟩, rfl⟩
        intro x hx
        simp only [List.mem_singleton] at hx
        rw [hx]; exact hb
      · rw [if_neg ha, h3]
        refine ⟨b :: a :: p, hsw, ⟨?_, ?_⟩, rfl⟩
        · intro x hx
          simp only [List.mem_cons] at hx
          rcases hx with rfl | rfl | hx
          · exact hb
          · exact ha
          · exact h2.1 x hx
        · rcases h2.2 with e | ⟨r, e⟩
          · left; rw [e]
          · right; exact ⟨r, by rw [e]; rfl⟩

theorem fixLoop_odd : ∀ (s : Bytes) (x : Byte), s.length % 2 = 0 →
    ((∀ y ∈ s, y ≠ 0) → fixLoop (s ++ [x]) = .panic) ∧ ((∃ y ∈ s, y = 0) → fixLoop (s ++ [x]) = fixLoop s)
  | [], x, _ => ⟨fun _ => rfl, fun ⟨y, hy, _⟩ => by simp at hy⟩
  | [_], x, h => by simp at h
  | a :: b :: rest, x, h => by
    obtain ⟨h1, h2⟩ := fixLoop_odd rest x (by simp only [List.length_cons] at h; omega)
    constructor
    · intro hn
      have hb : b ≠ 0#8 := hn b (by simp)
      have ha : a ≠ 0#8 := hn a (by simp)
      show fixLoop (a :: b :: (rest ++ [x])) = .panic
      rw [fixLoop, if_neg hb, if_neg ha, h1 (fun y hy => hn y (by simp [hy]))]
    · rintro ⟨y, hy, h0⟩
      show fixLoop (a :: b :: (rest ++ [x])) = fixLoop (a :: b :: rest)
      rw [fixLoop, fixLoop]
      by_cases hb : b = 0#8
      · rw [if_pos hb, if_pos hb]
      · rw [if_neg hb, if_neg hb]
        by_cases ha : a = 0#8
        · rw [if_pos ha, if_pos ha]
        · rw [if_neg ha, if_neg ha, h2]
          subst h0
          simp only [List.mem_cons] at hy
          rcases hy with e | e | e
          · exact absurd e.symm ha
          · exact absurd e.symm hb
          · exact ⟨_, e, rfl⟩

theorem trimSpacesRight_spec (s : Bytes) : NoTrailingSpaces s (trimSpacesRight s) := by
  unfold trimSpacesRight
  have key : ∀ r : Bytes, (∃ k, r = List.replicate k 0x20#8 ++ r.dropWhile (fun b => b == 0x20#8)) ∧
      (r.dropWhile (fun b => b == 0x20#8)).head? ≠ some 0x20#8 := by
    intro r
    induction r with
    | nil => exact ⟨⟨0, rfl⟩, by simp⟩
    | cons a r ih =>
      by_cases ha : a = 0x20#8
      · subst ha
        obtain ⟨⟨k, hk⟩, h2⟩ := ih
        rw [List.dropWhile_cons_of_pos (by simp)]
        exact ⟨⟨k + 1, by rw [List.replicate_succ, List.cons_append, ← hk]⟩, h2⟩
      · rw [List.dropWhile_cons_of_neg (by simpa using ha)]
        exact ⟨⟨0, rfl⟩, by simpa using ha⟩
  obtain ⟨⟨k, hk⟩, h2⟩ := key s.reverse
  constructor
  · refine ⟨k, ?_⟩
    have := congrArg List.reverse hk
    rw [List.reverse_append, List.reverse_reverse, List.reverse_replicate] at this
    exact this
  · rw [List.getLast?_reverse]
    exact h2

/-- **C54.** On even lengths `FixAtaStringOrder` returns the part of the pair-exchanged data before its first
NUL, without trailing spaces exactly if asked. -/
theorem fixAtaStringOrder_even (s : Bytes) (trim : Bool) (h : s.length % 2 = 0) :
    ∃ sw p o, PairSwapped s sw ∧ BeforeNul sw p ∧ fixAtaStringOrder s trim = .ret o ∧
      (trim = false → o = p) ∧ (trim = true → NoTrailingSpaces p o) := by
  obtain ⟨sw, p, h1, h2, h3⟩ := fixLoop_even s h
  refine ⟨sw, p, if trim = true then trimSpacesRight p else p, h1, h2, ?_, ?_, ?_⟩
  · unfold fixAtaStringOrder
    rw [h3]
    rfl
  · intro ht; exact if_neg (by rw [ht]; simp)
  · intro ht
    have : (if trim = true then trimSpacesRight p else p) = trimSpacesRight p := if_pos ht
    rw [this]; exact trimSpacesRight_spec p

/-- **C54.** On odd lengths it panics exactly if no byte before the last one is NUL; otherwise the last byte is
ignored. -/
theorem fixAtaStringOrder_odd (s : Bytes) (x : Byte) (trim : Bool) (h : s.length % 2 = 0) :
    (fixAtaStringOrder (s ++ [x]) trim = .panic ↔ ∀ y ∈ s, y ≠ 0) ∧
    ((∃ y ∈ s, y = 0) → fixAtaStringOrder (s ++ [x]) trim = fixAtaStringOrder s trim) := by
  obtain ⟨h1, h2⟩ := fixLoop_odd s x h
  have hs : (∃ y ∈ s, y = 0) → fixAtaStringOrder (s ++ [x]) trim = fixAtaStringOrder s trim := by
    intro hz
    unfold fixAtaStringOrder
    rw [h2 hz]
  refine ⟨⟨?_, ?_⟩, hs⟩
  · intro hp
    intro y hy h0
    have hz : ∃ y ∈ s, y = 0 := ⟨y, hy, h0⟩
    obtain ⟨sw, p, o, -, -, ho, -⟩ := fixAtaStringOrder_even s trim h
    rw [hs hz, ho] at hp
    simp at hp
  · intro hn
    unfold fixAtaStringOrder
    rw [h1 hn]
    rfl

example : fixAtaStringOrder [0x42, 0x41, 0x20, 0x43, 0x00, 0x20, 0x07] true = .ret [0x41, 0x42, 0x43] := by decide
example : fixAtaStringOrder [0x42, 0x41, 0x20] true = .panic := by decide

/-! ## C55 -/

theorem lba48Ops_iff (op : Byte) : lba48Ops.contains op = true ↔ Ext op := by
  revert op; unfold Ext lba48Ops; decide +kernel

theorem lba28Ops_iff (op : Byte) : lba28Ops.contains op = true ↔ Fixed28 op := by
  revert op; unfold Fixed28 lba28Ops; decide +kernel

/-- **C55.** Ten opcodes always need 48 bit, four never do; any other one needs it exactly if the start address or
the address of the last sector reaches 2^28 - 1, or the count exceeds 255 (natural-number arithmetic: nothing
wraps around). -/
theorem lba48_decision (op : Byte) (lba nsect : BitVec 64) :
    (Ext op → isNeedsLba48 op lba nsect = true) ∧
    (¬ Ext op → Fixed28 op → isNeedsLba48 op lba nsect = false) ∧
    (¬ Ext op → ¬ Fixed28 op → (isNeedsLba48 op lba nsect = true ↔
      nsect.toNat > 255 ∨ lba.toNat ≥ 2 ^ 28 - 1 ∨ (nsect.toNat > 0 ∧ lba.toNat + nsect.toNat - 1 ≥ 2 ^ 28 - 1))) := by
  have hlim : lba28Limit.toNat = 2 ^ 28 - 1 := by decide
  unfold isNeedsLba48
  refine ⟨fun h => by rw [if_pos ((lba48Ops_iff op).2 h)], fun h h' => ?_, fun h h' => ?_⟩
  · rw [if_neg (fun x => h ((lba48Ops_iff op).1 x)), if_pos ((lba28Ops_iff op).2 h')]
  · rw [if_neg (fun x => h ((lba48Ops_iff op).1 x)), if_neg (fun x => h' ((lba28Ops_iff op).1 x))]
    by_cases h1 : lba ≥ lba28Limit
    · rw [if_pos h1]
      have : lba.toNat ≥ 2 ^ 28 - 1 := by
        have := BitVec.le_def.1 h1
        omega
      exact ⟨fun _ => Or.inr (Or.inl this), fun _ => rfl⟩
    · rw [if_neg h1]
      have g1 : lba.toNat < 2 ^ 28 - 1 := by
        have := BitVec.not_le.1 h1
        have := BitVec.lt_def.1 this
        omega
      by_cases h2 : nsect > 0#64
      · rw [if_pos h2]
        have g2 : nsect.toNat > 0 := by
          have := BitVec.lt_def.1 h2
          simpa using this
        by_cases h3 : nsect > 0xff#64
        · rw [if_pos h3]
          have : nsect.toNat > 255 := by
            have := BitVec.lt_def.1 h3
            simpa using this
          exact ⟨fun _ => Or.inl this, fun _ => rfl⟩
        · rw [if_neg h3]
          have g3 : nsect.toNat ≤ 255 := by
            have := BitVec.not_lt.1 h3
            have := BitVec.le_def.1 this
            simpa using this
          have g4 : (lba + nsect - 1#64).toNat = lba.toNat + nsect.toNat - 1 := by
            rw [BitVec.toNat_sub, BitVec.toNat_add]
            have : (1#64).toNat = 1 := rfl
            rw [this]
            omega
          by_cases h4 : lba + nsect - 1#64 ≥ lba28Limit
          · rw [if_pos h4]
            have := BitVec.le_def.1 h4
            exact ⟨fun _ => Or.inr (Or.inr ⟨g2, by omega⟩), fun _ => rfl⟩
          · rw [if_neg h4]
            have := BitVec.lt_def.1 (BitVec.not_le.1 h4)
            exact ⟨fun x => by simp at x, fun x => by omega⟩
      · rw [if_neg h2]
        have g2 : nsect.toNat = 0 := by
          have := BitVec.le_def.1 (BitVec.not_lt.1 h2)
          simpa using this
        exact ⟨fun x => by simp at x, fun x => by omega⟩

/-- The two opcode sets do not overlap, so the cases are exclusive. -/
theorem ext_not_fixed (op : Byte) (h : Ext op) : ¬ Fixed28 op := by
  revert op; unfold Ext Fixed28; decide +kernel

example : isNeedsLba48 0xc8#8 0x0ffffff0#64 15#64 = false ∧ isNeedsLba48 0xc8#8 0x0ffffff0#64 16#64 = true := by decide

/-- `IsDma` is true for exactly seven opcodes. -/
theorem isDma_spec (op : Byte) : isDma op = true ↔ op.toNat ∈ [0x06, 0x25, 0x35, 0x60, 0x61, 0xc8, 0xca] := by
  revert op; unfold isDma; decide +kernel

/-! ## C56 -/

/-- The address the registers describe. -/
theorem tfToLba_value (tf : Tf) :
    (tfToLba tf).toNat = tf.lob.lbal.toNat + 2 ^ 8 * tf.lob.lbam.toNat + 2 ^ 16 * tf.lob.lbah.toNat +
      (if tf.isLba48 ≠ 0 then
        2 ^ 24 * tf.hob.lbal.toNat + 2 ^ 32 * tf.hob.lbam.toNat + 2 ^ 40 * tf.hob.lbah.toNat
       else 2 ^ 24 * (tf.dev.toNat % 16)) := by
  have three : ∀ a b c : Byte, ((a.setWidth 32 <<< 16) ||| (b.setWidth 32 <<< 8) ||| c.setWidth 32 : BitVec 32).toNat =
      c.toNat + 2 ^ 8 * b.toNat + 2 ^ 16 * a.toNat := by
    intro a b c
    have ha := a.isLt; have hb := b.isLt; have hc := c.isLt
    rw [BitVec.toNat_or, BitVec.toNat_or, BitVec.toNat_shiftLeft, BitVec.toNat_shiftLeft, BitVec.toNat_setWidth,
      BitVec.toNat_setWidth, BitVec.toNat_setWidth, Nat.mod_eq_of_lt (a := a.toNat) (by omega),
      Nat.mod_eq_of_lt (a := b.toNat) (by omega), Nat.mod_eq_of_lt (a := c.toNat) (by omega), Nat.shiftLeft_eq,
      Nat.shiftLeft_eq, Nat.mod_eq_of_lt (by omega), Nat.mod_eq_of_lt (by omega), Nat.or_assoc,
      Nat.mul_comm b.toNat, ← Nat.two_pow_add_eq_or_of_lt (by omega), Nat.mul_comm a.toNat,
      ← Nat.two_pow_add_eq_or_of_lt (by omega)]
    omega
  have hdev : ((tf.dev &&& 0x0f#8).setWidth 32 : BitVec 32).toNat = tf.dev.toNat % 16 := by
    have e : (tf.dev &&& 0x0f#8).toNat = tf.dev.toNat % 16 := by
      rw [BitVec.toNat_and]; exact Nat.and_two_pow_sub_one_eq_mod tf.dev.toNat 4
    rw [BitVec.toNat_setWidth, e]
    omega
  have join : ∀ (h l : BitVec 32), h.toNat < 2 ^ 24 → l.toNat < 2 ^ 24 →
      ((h.setWidth 64 <<< 24) ||| l.setWidth 64 : BitVec 64).toNat = l.toNat + 2 ^ 24 * h.toNat := by
    intro h l hh hl
    rw [BitVec.toNat_or, BitVec.toNat_shiftLeft, BitVec.toNat_setWidth, BitVec.toNat_setWidth,
      Nat.mod_eq_of_lt (a := h.toNat) (by omega), Nat.mod_eq_of_lt (a := l.toNat) (by omega), Nat.shiftLeft_eq,
      Nat.mod_eq_of_lt (by omega), Nat.mul_comm h.toNat, ← Nat.two_pow_add_eq_or_of_lt (by omega)]
    omega
  have b1 := tf.lob.lbal.isLt; have b2 := tf.lob.lbam.isLt; have b3 := tf.lob.lbah.isLt
  have b4 := tf.hob.lbal.isLt; have b5 := tf.hob.lbam.isLt; have b6 := tf.hob.lbah.isLt
  have hlo := three tf.lob.lbah tf.lob.lbam tf.lob.lbal
  have hhi := three tf.hob.lbah tf.hob.lbam tf.hob.lbal
  unfold tfToLba
  by_cases h48 : tf.isLba48 ≠ 0#8
  · simp only [if_pos h48]
    rw [join _ _ (by rw [hhi]; omega) (by rw [hlo]; omega), hlo, hhi]
    have h48' : tf.isLba48 ≠ 0 := h48
    rw [if_pos h48']
    omega
  · simp only [if_neg h48]
    rw [join _ _ (by rw [hdev]; omega) (by rw [hlo]; omega), hlo, hdev]
    have h48' : ¬ tf.isLba48 ≠ 0 := h48
    rw [if_neg h48']

/-- **C56.** `TfInit` leaves every existing taskfile, in particular the caller's, as it was, for every argument;
only its own parameter variable (any location not in use before) changes. -/
theorem tfInit_no_effect (mem : TfMem) (arg param : Nat) (op : Byte) (lba nsect : BitVec 64) (a : Nat)
    (ha : a ≠ param) : tfInit mem arg param op lba nsect a = mem a := by
  unfold tfInit
  simp only
  split <;> simp [TfMem.store, ha]

/-- The parameter variable holds the computed registers at the end. -/
theorem tfInit_param (mem : TfMem) (arg param : Nat) (op : Byte) (lba nsect : BitVec 64) :
    tfInit mem arg param op lba nsect param = tfInitLocal (mem arg) op lba nsect := by
  unfold tfInit tfInitLocal
  simp only
  split <;> simp [TfMem.store]

/-- **C56.** The registers `TfInit` computes (and drops) would describe the address modulo 2^48 when 48-bit
addressing is chosen; otherwise, starting from a taskfile not marked 48 bit, modulo 2^28 — which is the address
itself unless the opcode is one of the four fixed ones; the low count register is the count modulo 256. -/
theorem tfInitLocal_address (tf : Tf) (op : Byte) (lba nsect : BitVec 64) :
    (isNeedsLba48 op lba nsect = true →
      (tfToLba (tfInitLocal tf op lba nsect)).toNat = lba.toNat % 2 ^ 48 ∧
      (tfInitLocal tf op lba nsect).lob.nsect.toNat + 256 * (tfInitLocal tf op lba nsect).hob.nsect.toNat =
        nsect.toNat % 2 ^ 16) ∧
    (isNeedsLba48 op lba nsect = false → tf.isLba48 = 0 →
      (tfToLba (tfInitLocal tf op lba nsect)).toNat = lba.toNat % 2 ^ 28 ∧
      (¬ Fixed28 op → (tfToLba (tfInitLocal tf op lba nsect)).toNat = lba.toNat ∧
        (tfInitLocal tf op lba nsect).lob.nsect.toNat = nsect.toNat)) := by
  have sh : ∀ (x : BitVec 64) (k : Nat), ((x >>> k).setWidth 8 : Byte).toNat = x.toNat / 2 ^ k % 256 := by
    intro x k
    rw [BitVec.toNat_setWidth, BitVec.toNat_ushiftRight, Nat.shiftRight_eq_div_pow]
  have s0 : ∀ x : BitVec 64, (x.setWidth 8 : Byte).toNat = x.toNat % 256 := by
    intro x; rw [BitVec.toNat_setWidth]
  constructor
  · intro h
    rw [tfToLba_value]
    simp only [tfInitLocal, h, if_true]
    rw [if_pos (by decide), sh, sh, sh, sh, sh, sh, s0, s0]
    have := lba.isLt
    have := nsect.isLt
    omega
  · intro h ht
    have e : ((0x40#8 : Byte) ||| ((lba >>> 24) &&& 0x0f#64).setWidth 8 : Byte).toNat % 16 = lba.toNat / 2 ^ 24 % 16 := by
      have m : (((lba >>> 24) &&& 0x0f#64).setWidth 8 : Byte).toNat = lba.toNat / 2 ^ 24 % 16 := by
        have g : ((lba >>> 24) &&& 0x0f#64).toNat = lba.toNat / 2 ^ 24 % 16 := by
          rw [BitVec.toNat_and, BitVec.toNat_ushiftRight, Nat.shiftRight_eq_div_pow]
          exact Nat.and_two_pow_sub_one_eq_mod (lba.toNat / 2 ^ 24) 4
        rw [s0, g]
        omega
      have a : ∀ y : Byte, y.toNat < 16 → (0x40#8 ||| y : Byte).toNat % 16 = y.toNat := by decide +kernel
      rw [a _ (by rw [m]; omega), m]
    have key : (tfToLba (tfInitLocal tf op lba nsect)).toNat = lba.toNat % 2 ^ 28 := by
      rw [tfToLba_value]
      simp only [tfInitLocal, h, Bool.false_eq_true, if_false, ht]
      rw [if_neg (by decide), sh, sh, s0, e]
      have := lba.isLt
      omega
    refine ⟨key, ?_⟩
    intro hf
    have he : ¬ Ext op := by
      intro x
      rw [(lba48_decision op lba nsect).1 x] at h
      simp at h
    have hd : ¬ isNeedsLba48 op lba nsect = true := by rw [h]; simp
    rw [(lba48_decision op lba nsect).2.2 he hf] at hd
    refine ⟨by rw [key]; omega, ?_⟩
    simp only [tfInitLocal, h, Bool.false_eq_true, if_false]
    rw [s0]
    omega

example : isNeedsLba48 0x25#8 0x123456789abc#64 8#64 = true ∧ isNeedsLba48 0xc8#8 5#64 8#64 = false := by decide

/-! ## C81 -/

theorem smart_sums : Layout.smartValues.sum = 512 ∧ Layout.smartThresholds.sum = 512 := by decide +kernel

theorem byte_of_slice (s : Bytes) (k : Nat) : (slice s k 1).getD 0 0 = byteAt s k := by
  unfold slice byteAt
  cases h : s.drop k with
  | nil =>
    have : s.length ≤ k := by simpa using h
    simp [List.getD_eq_getElem?_getD, List.getElem?_eq_none this]
  | cons a l =>
    have : s[k]? = some a := by
      have := congrArg (fun l => l[0]?) h
      simpa using this
    simp [List.getD_eq_getElem?_getD, this]

theorem word_of_slice (s : Bytes) (k : Nat) (h : k + 2 ≤ s.length) :
    (BitVec.ofNat 16 (beVal (slice s k 2))).toNat = 256 * (byteAt s k).toNat + (byteAt s (k + 1)).toNat := by
  have e : slice s k 2 = [byteAt s k, byteAt s (k + 1)] := by
    unfold slice byteAt
    rw [List.drop_eq_getElem_cons (by omega), List.drop_eq_getElem_cons (by omega)]
    simp only [List.getD_eq_getElem?_getD, List.getElem?_eq_getElem (show k < s.length by omega),
      List.getElem?_eq_getElem (show k + 1 < s.length by omega), Option.getD_some, List.take_succ_cons, List.take_zero]
  rw [e]
  have h1 := (byteAt s k).isLt
  have h2 := (byteAt s (k + 1)).isLt
  simp only [beVal, List.length_cons, List.length_nil, BitVec.toNat_ofNat]
  omega

theorem slice_eq_bytes (s : Bytes) (k n : Nat) (h : k + n ≤ s.length) :
    slice s k n = (List.range n).map (fun j => byteAt s (k + j)) := by
  unfold slice byteAt
  apply List.ext_getElem
  · simp; omega
  · intro i h1 h2
    simp only [List.length_take, List.length_drop] at h1
    simp [List.getElem?_eq_getElem (show k + i < s.length by omega)]

theorem values_at : ∀ i, i < 30 → ∀ x ∈ [(0, 0, 1), (1, 1, 2), (2, 3, 1), (3, 4, 1), (4, 5, 6)],
    1 + x.1 + 6 * i < Layout.smartValues.length ∧ (Layout.smartValues.take (1 + x.1 + 6 * i)).sum = 2 + x.2.1 + 12 * i ∧
    Layout.smartValues.getD (1 + x.1 + 6 * i) 0 = x.2.2 := by decide +kernel

theorem thresholds_at : ∀ i, i < 30 → ∀ x ∈ [(0, 0, 1), (1, 1, 1)],
    1 + x.1 + 3 * i < Layout.smartThresholds.length ∧ (Layout.smartThresholds.take (1 + x.1 + 3 * i)).sum = 2 + x.2.1 + 12 * i ∧
    Layout.smartThresholds.getD (1 + x.1 + 3 * i) 0 = x.2.2 := by decide +kernel

theorem smartValues_of (s : Bytes) (h : s.length = 512) : SmartValuesOf s (pieces Layout.smartValues s) := by
  have at' : ∀ i, i < 30 → ∀ x ∈ [(0, 0, 1), (1, 1, 2), (2, 3, 1), (3, 4, 1), (4, 5, 6)],
      (pieces Layout.smartValues s).getD (1 + x.1 + 6 * i) [] = slice s (2 + x.2.1 + 12 * i) x.2.2 := by
    intro i hi x hx
    obtain ⟨h1, h2, h3⟩ := values_at i hi x hx
    rw [pieces_getD _ _ _ h1, h2, h3]
  refine ⟨?_, fun i hi => ?_⟩
  · unfold smartRev
    rw [pieces_getD _ _ _ (by decide +kernel)]
    exact word_of_slice s 0 (by omega)
  · have a0 := at' i hi (0, 0, 1) (by decide)
    have a1 := at' i hi (1, 1, 2) (by decide)
    have a2 := at' i hi (2, 3, 1) (by decide)
    have a3 := at' i hi (3, 4, 1) (by decide)
    have a4 := at' i hi (4, 5, 6) (by decide)
    dsimp only at a0 a1 a2 a3 a4
    unfold smartAttr
    dsimp only
    rw [a0, a1, a2, a3, a4]
    refine ⟨byte_of_slice _ _, ?_, byte_of_slice _ _, byte_of_slice _ _, slice_eq_bytes _ _ _ (by omega)⟩
    have := word_of_slice s (2 + 1 + 12 * i) (by omega)
    rw [show 2 + 1 + 12 * i + 1 = 4 + 12 * i by omega] at this
    exact this

theorem smartThresholds_of (s : Bytes) (h : s.length = 512) : SmartThresholdsOf s (pieces Layout.smartThresholds s) := by
  have at' : ∀ i, i < 30 → ∀ x ∈ [(0, 0, 1), (1, 1, 1)],
      (pieces Layout.smartThresholds s).getD (1 + x.1 + 3 * i) [] = slice s (2 + x.2.1 + 12 * i) x.2.2 := by
    intro i hi x hx
    obtain ⟨h1, h2, h3⟩ := thresholds_at i hi x hx
    rw [pieces_getD _ _ _ h1, h2, h3]
  refine ⟨?_, fun i hi => ?_⟩
  · unfold smartRev
    rw [pieces_getD _ _ _ (by decide +kernel)]
    exact word_of_slice s 0 (by omega)
  · have a0 := at' i hi (0, 0, 1) (by decide)
    have a1 := at' i hi (1, 1, 1) (by decide)
    dsimp only at a0 a1
    unfold smartThreshold
    dsimp only
    rw [a0, a1]
    exact ⟨byte_of_slice _ _, byte_of_slice _ _⟩

/-- **C81.** `ReadSmart` on an open ATA handle sends the "read attribute values" command with a zeroed sector and,
only if that succeeded, the "read thresholds" command with the sector as it is then; it returns the first error,
and otherwise what the two sectors hold, at the places ATA gives the fields (but 16-bit fields with their bytes
exchanged): the thresholds are read over the attribute values, which show through wherever the drive stored nothing. No other request is made and it never panics. -/
theorem readSmart_spec (h : Handle) (d : Driver) (to : Nat) (env : Prog.Env DrvReq DrvRep)
    (hist : Prog.Trace DrvReq DrvRep) (hd : h.dh = some d) (ha : d.ata = true) :
    ∃ res r1 rest, OutT.run env hist (readSmart h to) =
        (.ret res, (.taskFile false false
          { command := 0xb0, lob := { feat := 0xd0, nsect := 1, lbam := 0x4f, lbah := 0xc2 } } (zeros 512) to, r1) :: rest) ∧
      (∀ e, r1.err = some e → rest = [] ∧ res = .err e) ∧
      (r1.err = none → ∃ r2, rest = [(.taskFile false false
          { command := 0xb0, lob := { feat := 0xd1, nsect := 1, lbam := 0x4f, lbah := 0xc2 } }
          (storeInto (zeros 512) r1.data) to, r2)] ∧
        (∀ e, r2.err = some e → res = .err e) ∧
        (r2.err = none → ∃ v t, res = .ok (v, t) ∧ SmartValuesOf (storeInto (zeros 512) r1.data) v ∧
          SmartThresholdsOf (storeInto (storeInto (zeros 512) r1.data) r2.data) t)) := by
  have l1 : ∀ b : Bytes, b.length = 512 → unpackBytes Layout.smartValues b = .ret (.ok (pieces Layout.smartValues b)) :=
    fun b hb => (unpackBytes_spec _ _).1 (by rw [smart_sums.1, hb]; exact Nat.le_refl _)
  have l2 : ∀ b : Bytes, b.length = 512 →
      unpackBytes Layout.smartThresholds b = .ret (.ok (pieces Layout.smartThresholds b)) :=
    fun b hb => (unpackBytes_spec _ _).1 (by rw [smart_sums.2, hb]; exact Nat.le_refl _)
  unfold readSmart Handle.ataDoTaskFileCmd
  rw [hd]
  simp only [ha, if_true]
  rw [OutT.run_bind, OutT.run_ask_bind]
  simp only [OutT.run_ret]
  obtain ⟨q, hq⟩ : ∃ q, q = env hist (.taskFile false false (smartTf 0xd0#8) (zeros 512) to) := ⟨_, rfl⟩
  rw [← hq]
  have hl : (storeInto (zeros 512) q.data).length = 512 := by rw [storeInto_length, zeros_length]
  cases he : q.err with
  | some e =>
    refine ⟨.err e, q, [], rfl, ?_, ?_⟩
    · intro e' h'
      rw [he] at h'
      simp only [Option.some.injEq] at h'
      subst h'
      exact ⟨rfl, rfl⟩
    · intro h'; rw [he] at h'; simp at h'
  | none =>
    simp only
    rw [OutT.run_bind, l1 _ hl]
    simp only [OutT.run_lift_ret]
    rw [OutT.run_bind, OutT.run_ask_bind]
    simp only [OutT.run_ret]
    generalize env _ (.taskFile false false (smartTf 0xd1#8) (storeInto (zeros 512) q.data) to) = q2
    have hl2 : (storeInto (storeInto (zeros 512) q.data) q2.data).length = 512 := by rw [storeInto_length, hl]
    cases he2 : q2.err with
    | some e =>
      refine ⟨.err e, q, _, rfl, ?_, ?_⟩
      · intro e' h'; rw [he] at h'; simp at h'
      · intro _
        refine ⟨q2, rfl, ?_, ?_⟩
        · intro e' h'
          rw [he2] at h'
          simp only [Option.some.injEq] at h'
          subst h'
          rfl
        · intro h'; rw [he2] at h'; simp at h'
    | none =>
      simp only
      rw [OutT.run_bind, l2 _ hl2]
      simp only [OutT.run_lift_ret, OutT.run_ret]
      refine ⟨_, q, _, rfl, ?_, ?_⟩
      · intro e' h'; rw [he] at h'; simp at h'
      · intro _
        refine ⟨q2, rfl, ?_, ?_⟩
        · intro e' h'
          rw [he2] at h'; simp at h'
        · intro _; exact ⟨_, _, rfl, smartValues_of _ hl, smartThresholds_of _ hl2⟩

/-- **C81 (closed handles and other drivers).** On a handle without a driver, or whose driver does not take ATA
commands, `ReadSmart` makes no request at all and returns an error. -/
theorem readSmart_no_ata (h : Handle) (to : Nat) (env : Prog.Env DrvReq DrvRep) (hist : Prog.Trace DrvReq DrvRep)
    (hd : ∀ d, h.dh = some d → d.ata = false) :
    ∃ e, OutT.run env hist (readSmart h to) = (.ret (.err e), []) := by
  unfold readSmart Handle.ataDoTaskFileCmd
  cases hh : h.dh with
  | none => exact ⟨_, rfl⟩
  | some d =>
    simp only [hd d hh, Bool.false_eq_true, if_false]
    exact ⟨_, rfl⟩

example : ∀ d : Driver, (Handle.mk (some { ata := false, nvme := true, identity := [] }) {}).dh = some d → d.ata = false := by
  intro d h
  simp only [Option.some.injEq] at h
  rw [← h]

example : ((OutT.run (fun _ _ => {}) [] (readSmart (Handle.mk (some { ata := true, nvme := false, identity := [] }) {}) 3)).2).length = 2 := by
  decide +kernel

end Dparm
