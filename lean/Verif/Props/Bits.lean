import Verif.Model.Cdb
import Verif.Spec.Bits
/-!
# CDB bit fields (C66)
-/
namespace Dparm
open Spec

theorem eight (p : Nat → Prop) (h0 : p 0) (h1 : p 1) (h2 : p 2) (h3 : p 3) (h4 : p 4) (h5 : p 5) (h6 : p 6) (h7 : p 7) :
    ∀ i, i < 8 → p i := by
  intro i hi
  match i, hi with
  | 0, _ => exact h0
  | 1, _ => exact h1
  | 2, _ => exact h2
  | 3, _ => exact h3
  | 4, _ => exact h4
  | 5, _ => exact h5
  | 6, _ => exact h6
  | 7, _ => exact h7

/-- **C66.** Field by field: each setter of the ATA pass-through CDBs (except the two below) stores its value in its
own bits and changes no other bit of either flag byte, and each getter reads exactly those bits. -/
theorem passFlags_fields (c : PassFlags) (v : Byte) (f : Bool) :
    ((c.setProtocol v).b02 = c.b02 ∧ StoredAt c.b01 (c.setProtocol v).b01 v 1 4 ∧ ReadAt c.b01 c.getProtocol 1 4) ∧
    ((c.setTLength v).b01 = c.b01 ∧ StoredAt c.b02 (c.setTLength v).b02 v 0 2 ∧ ReadAt c.b02 c.getTLength 0 2) ∧
    ((c.setOffline v).b01 = c.b01 ∧ StoredAt c.b02 (c.setOffline v).b02 v 6 2 ∧ ReadAt c.b02 c.getOffline 6 2) ∧
    ((c.setByteBlock f).b01 = c.b01 ∧ FlagAt c.b02 (c.setByteBlock f).b02 f 2 ∧ c.isByteBlock = c.b02.getLsbD 2) ∧
    ((c.setTDir f).b01 = c.b01 ∧ FlagAt c.b02 (c.setTDir f).b02 f 3 ∧ c.isTDir = c.b02.getLsbD 3) ∧
    ((c.setCkCond f).b01 = c.b01 ∧ FlagAt c.b02 (c.setCkCond f).b02 f 5 ∧ c.isCkCond = c.b02.getLsbD 5) ∧
    ReadAt c.b01 c.getMultipleCount 5 3 := by
  obtain ⟨b1, b2⟩ := c
  refine ⟨⟨rfl, ?_, ?_⟩, ⟨rfl, ?_, ?_⟩, ⟨rfl, ?_, ?_⟩, ⟨rfl, ?_, ?_⟩, ⟨rfl, ?_, ?_⟩, ⟨rfl, ?_, ?_⟩, ?_⟩
  · exact eight _ (by simp [PassFlags.setProtocol]) (by simp [PassFlags.setProtocol]) (by simp [PassFlags.setProtocol])
      (by simp [PassFlags.setProtocol]) (by simp [PassFlags.setProtocol]) (by simp [PassFlags.setProtocol])
      (by simp [PassFlags.setProtocol]) (by simp [PassFlags.setProtocol])
  · unfold ReadAt PassFlags.getProtocol; dsimp only; generalize b1 = x; revert x; decide +kernel
  · exact eight _ (by simp [PassFlags.setTLength]) (by simp [PassFlags.setTLength]) (by simp [PassFlags.setTLength])
      (by simp [PassFlags.setTLength]) (by simp [PassFlags.setTLength]) (by simp [PassFlags.setTLength])
      (by simp [PassFlags.setTLength]) (by simp [PassFlags.setTLength])
  · unfold ReadAt PassFlags.getTLength; dsimp only; generalize b2 = x; revert x; decide +kernel
  · exact eight _ (by simp [PassFlags.setOffline]) (by simp [PassFlags.setOffline]) (by simp [PassFlags.setOffline])
      (by simp [PassFlags.setOffline]) (by simp [PassFlags.setOffline]) (by simp [PassFlags.setOffline])
      (by simp [PassFlags.setOffline]) (by simp [PassFlags.setOffline])
  · unfold ReadAt PassFlags.getOffline; dsimp only; generalize b2 = x; revert x; decide +kernel
  · unfold FlagAt PassFlags.setByteBlock; dsimp only; generalize b2 = x; generalize f = g; revert x g; decide +kernel
  · unfold PassFlags.isByteBlock; dsimp only; generalize b2 = x; revert x; decide +kernel
  · unfold FlagAt PassFlags.setTDir; dsimp only; generalize b2 = x; generalize f = g; revert x g; decide +kernel
  · unfold PassFlags.isTDir; dsimp only; generalize b2 = x; revert x; decide +kernel
  · unfold FlagAt PassFlags.setCkCond; dsimp only; generalize b2 = x; generalize f = g; revert x g; decide +kernel
  · unfold PassFlags.isCkCond; dsimp only; generalize b2 = x; revert x; decide +kernel
  · unfold ReadAt PassFlags.getMultipleCount; dsimp only; generalize b1 = x; revert x; decide +kernel

/-- A stored value is read back (modulo the field's width). -/
theorem storedAt_read (old new v r : Byte) (lo w : Nat) (hw : lo + w ≤ 8) (hs : StoredAt old new v lo w)
    (hr : ReadAt new r lo w) : r.toNat = v.toNat % 2 ^ w := by
  rw [hr]
  apply Nat.eq_of_testBit_eq
  intro i
  rw [Nat.testBit_mod_two_pow, Nat.testBit_mod_two_pow, Nat.testBit_div_two_pow]
  by_cases hi : i < w
  · simp only [hi, decide_true, Bool.true_and]
    have := hs (i + lo) (by omega)
    rw [if_pos (by omega)] at this
    simpa [BitVec.getLsbD, Nat.add_comm] using this
  · simp [hi]

/-- **C66.** What is set is read back. -/
theorem passFlags_roundtrip (c : PassFlags) (v : Byte) (f : Bool) :
    (c.setProtocol v).getProtocol.toNat = v.toNat % 16 ∧ (c.setTLength v).getTLength.toNat = v.toNat % 4 ∧
    (c.setOffline v).getOffline.toNat = v.toNat % 4 ∧ (c.setByteBlock f).isByteBlock = f ∧
    (c.setTDir f).isTDir = f ∧ (c.setCkCond f).isCkCond = f := by
  obtain ⟨⟨-, a1, -⟩, ⟨-, a2, -⟩, ⟨-, a3, -⟩, ⟨-, a4, -⟩, ⟨-, a5, -⟩, ⟨-, a6, -⟩, -⟩ := passFlags_fields c v f
  have r1 := (passFlags_fields (c.setProtocol v) v f).1.2.2
  have r2 := (passFlags_fields (c.setTLength v) v f).2.1.2.2
  have r3 := (passFlags_fields (c.setOffline v) v f).2.2.1.2.2
  have r4 := (passFlags_fields (c.setByteBlock f) v f).2.2.2.1.2.2
  have r5 := (passFlags_fields (c.setTDir f) v f).2.2.2.2.1.2.2
  have r6 := (passFlags_fields (c.setCkCond f) v f).2.2.2.2.2.1.2.2
  refine ⟨storedAt_read _ _ _ _ 1 4 (by omega) a1 r1, storedAt_read _ _ _ _ 0 2 (by omega) a2 r2,
    storedAt_read _ _ _ _ 6 2 (by omega) a3 r3, ?_, ?_, ?_⟩
  · rw [r4, a4 2 (by omega), if_pos rfl]
  · rw [r5, a5 3 (by omega), if_pos rfl]
  · rw [r6, a6 5 (by omega), if_pos rfl]

/-- **C66 (defect).** `SetMultipleCount` never changes the multiple count; it overwrites the whole second flag byte:
its low three bits become the OR of the first flag byte's low bits and the value, bits 3 and 4 those of the first
byte, and check-condition and offline are cleared. -/
theorem setMultipleCount_wrong (c : PassFlags) (v : Byte) :
    (c.setMultipleCount v).getMultipleCount = c.getMultipleCount ∧
    (c.setMultipleCount v).b02.toNat = ((c.b01.toNat % 32) ||| (v.toNat % 8)) ∧
    (c.setMultipleCount v).isCkCond = false ∧ (c.setMultipleCount v).getOffline = 0 := by
  obtain ⟨b1, b2⟩ := c
  have e : ((b1 &&& 0x1f#8) ||| (v &&& 0x07#8) : Byte).toNat = ((b1.toNat % 32) ||| (v.toNat % 8)) := by
    rw [BitVec.toNat_or, BitVec.toNat_and, BitVec.toNat_and]
    have h1 : b1.toNat &&& (0x1f#8).toNat = b1.toNat % 32 := Nat.and_two_pow_sub_one_eq_mod b1.toNat 5
    have h2 : v.toNat &&& (0x07#8).toNat = v.toNat % 8 := Nat.and_two_pow_sub_one_eq_mod v.toNat 3
    rw [h1, h2]
  have hlt : ((b1 &&& 0x1f#8) ||| (v &&& 0x07#8) : Byte).toNat < 32 := by
    rw [e]
    exact Nat.or_lt_two_pow (n := 5) (by omega) (by omega)
  have g : ∀ x : Byte, x.toNat < 32 → ((x &&& 0x20#8 != 0#8) = false ∧ ((x >>> 6) &&& 0x03#8) = 0) := by decide +kernel
  exact ⟨rfl, e, (g _ hlt).1, (g _ hlt).2⟩

/-- **C66 (defect).** `SetExtend` does not touch the EXTEND bit of the command (bit 0 of the first flag byte); it
changes the low bit of the transfer length. -/
theorem setExtend_wrong (c : PassFlags) (f : Bool) :
    (c.setExtend f).b01 = c.b01 ∧ FlagAt c.b02 (c.setExtend f).b02 f 0 ∧ (c.setExtend f).isExtend = f ∧
    (c.setExtend f).getTLength.toNat = c.getTLength.toNat / 2 * 2 + f.toNat := by
  obtain ⟨b1, b2⟩ := c
  refine ⟨rfl, ?_, ?_, ?_⟩
  · unfold FlagAt PassFlags.setExtend; dsimp only; generalize b2 = x; generalize f = g; revert x g; decide +kernel
  · unfold PassFlags.isExtend PassFlags.setExtend; dsimp only; generalize b2 = x; generalize f = g; revert x g; decide +kernel
  · unfold PassFlags.getTLength PassFlags.setExtend; dsimp only; generalize b2 = x; generalize f = g; revert x g; decide +kernel

/-- **C66.** The accessors of CDB10, CDB16 and the security protocol CDB store and read exactly their own bits. -/
theorem cdbB01_fields (b v : Byte) (f : Bool) :
    (FlagAt b (CdbB01.setRelativeAddress b f) f 0 ∧ CdbB01.isRelativeAddress b = b.getLsbD 0) ∧
    (FlagAt b (CdbB01.setForceUnitAccess b f) f 3 ∧ CdbB01.isForceUnitAccess b = b.getLsbD 3) ∧
    (FlagAt b (CdbB01.setDisablePageOut b f) f 4 ∧ CdbB01.isDisablePageOut b = b.getLsbD 4) ∧
    (StoredAt b (CdbB01.setTop b v) v 5 3 ∧ ReadAt b (CdbB01.getTop b) 5 3) ∧
    (FlagAt b (CdbB01.setInc512 b f) f 7 ∧ CdbB01.isInc512 b = b.getLsbD 7) := by
  refine ⟨⟨?_, ?_⟩, ⟨?_, ?_⟩, ⟨?_, ?_⟩, ⟨?_, ?_⟩, ⟨?_, ?_⟩⟩
  · unfold FlagAt CdbB01.setRelativeAddress; generalize b = x; generalize f = g; revert x g; decide +kernel
  · unfold CdbB01.isRelativeAddress; generalize b = x; revert x; decide +kernel
  · unfold FlagAt CdbB01.setForceUnitAccess; generalize b = x; generalize f = g; revert x g; decide +kernel
  · unfold CdbB01.isForceUnitAccess; generalize b = x; revert x; decide +kernel
  · unfold FlagAt CdbB01.setDisablePageOut; generalize b = x; generalize f = g; revert x g; decide +kernel
  · unfold CdbB01.isDisablePageOut; generalize b = x; revert x; decide +kernel
  · exact eight _ (by simp [CdbB01.setTop]) (by simp [CdbB01.setTop]) (by simp [CdbB01.setTop]) (by simp [CdbB01.setTop])
      (by simp [CdbB01.setTop]) (by simp [CdbB01.setTop]) (by simp [CdbB01.setTop]) (by simp [CdbB01.setTop])
  · unfold ReadAt CdbB01.getTop; generalize b = x; revert x; decide +kernel
  · unfold FlagAt CdbB01.setInc512; generalize b = x; generalize f = g; revert x g; decide +kernel
  · unfold CdbB01.isInc512; generalize b = x; revert x; decide +kernel

example : PassFlags.setMultipleCount { b01 := 0x09, b02 := 0xee } 0x02 = { b01 := 0x09, b02 := 0x0b } := by decide
example : PassFlags.setProtocol { b01 := 0xff, b02 := 0x2e } 0x06 = { b01 := 0xed, b02 := 0x2e } := by decide

end Dparm
