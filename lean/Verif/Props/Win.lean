import Verif.Lemmas.Win
/-!
# The Windows ATA and SCSI drivers (C73, C74, C96 to C98)
-/
namespace Dparm
open Spec

/-! ### The records -/

theorem ataFields_length (rw : Bool) (tf : Tf) (len to : Nat) (p : Bytes) (hp : p.length = 48) :
    (ataFields rw tf len to p).length = 48 := by
  unfold ataFields
  dsimp only
  have h1 : (copyAt (copyAt (copyAt p 0 (leBytes 2 ataParamsSize)) 12 (leBytes 4 to)) 2
      (leBytes 2 (if rw then 4 else 2))).length = 48 :=
    put_length (put_length (put_length hp (by simp)) (by simp)) (by simp)
  split
  · exact put_length (put_length (put_length (put_length h1 (by simp)) (by simp)) (by simp)) (by simp)
  · exact put_length (put_length h1 (by simp)) (by simp)

/-- Every field of the record after a round wrote it, in a record that held `p`. -/
theorem ataFields_view (rw : Bool) (tf : Tf) (len to b : Nat) (p : Bytes) (hp : p.length = 48) :
    ataView (copyAt (ataFields rw tf len to p) 24 (leBytes 8 b)) =
      { length := 48, flags := ataFlagsOf rw tf, address := slice p 4 4, transferLength := len % 2 ^ 32,
        timeout := to % 2 ^ 32, reserved := slice p 16 8, dataBuffer := b % 2 ^ 64,
        previous := if tf.isLba48 = 0 then slice p 32 8 else previousRegs tf, current := currentRegs tf } := by
  have hl := ataFields_length rw tf len to p hp
  have hflag : ∀ x : Nat, x < 65536 → leVal (leBytes 2 x) = x := fun x hx => by
    rw [leVal_leBytes]; omega
  have h1 := put_length (i := 0) (d := leBytes 2 ataParamsSize) hp (by simp)
  have h2 := put_length (i := 12) (d := leBytes 4 to) h1 (by simp)
  have h3 := put_length (i := 2) (d := leBytes 2 (if rw then 4 else 2)) h2 (by simp)
  have h4 := put_length (i := 2) (d := leBytes 2 ((if rw then 4 else 2) ||| 8)) h3 (by simp)
  have h5 := put_length (i := 32) (d := previousRegs tf) h4 (by simp [previousRegs])
  have h6 := put_length (i := 40) (d := currentRegs tf) h5 (by simp [currentRegs])
  have h6' := put_length (i := 40) (d := currentRegs tf) h3 (by simp [currentRegs])
  have hcl : (currentRegs tf).length = 8 := rfl
  have hpl : (previousRegs tf).length = 8 := rfl
  unfold ataView
  by_cases hx : tf.isLba48 = 0#8
  · have hform : ataFields rw tf len to p =
        copyAt (copyAt (copyAt (copyAt (copyAt p 0 (leBytes 2 48)) 12 (leBytes 4 to)) 2
          (leBytes 2 (if rw then 4 else 2))) 40 (currentRegs tf)) 8 (leBytes 4 len) := by
      unfold ataFields; simp [hx, currentRegs]
    rw [hform] at hl ⊢
    have hs (j n : Nat) (hd : j + n ≤ 24 ∨ 32 ≤ j) := put_other (i := 24) (d := leBytes 8 b) (j := j) (n := n) hl (by simp)
      (by simpa using hd)
    have hs8 (j n : Nat) (hd : j + n ≤ 8 ∨ 12 ≤ j) := put_other (i := 8) (d := leBytes 4 len) (j := j) (n := n) h6' (by simp)
      (by simpa using hd)
    have hs40 (j n : Nat) (hd : j + n ≤ 40 ∨ 48 ≤ j) := put_other (i := 40) (d := currentRegs tf) (j := j) (n := n) h3 (by simp [hcl])
      (by simpa [hcl] using hd)
    have hs2 (j n : Nat) (hd : j + n ≤ 2 ∨ 4 ≤ j) := put_other (i := 2) (d := leBytes 2 (if rw then 4 else 2)) (j := j) (n := n) h2
      (by simp) (by simpa using hd)
    have hs12 (j n : Nat) (hd : j + n ≤ 12 ∨ 16 ≤ j) := put_other (i := 12) (d := leBytes 4 to) (j := j) (n := n) h1
      (by simp) (by simpa using hd)
    have hs0 (j n : Nat) (hd : j + n ≤ 0 ∨ 2 ≤ j) := put_other (i := 0) (d := leBytes 2 48) (j := j) (n := n) hp
      (by simp) (by simpa using hd)
    rw [AtaView.mk.injEq]
    refine ⟨?_, ?_, ?_, ?_, ?_, ?_, ?_, ?_, ?_⟩
    · rw [hs 0 2 (by omega), hs8 0 2 (by omega), hs40 0 2 (by omega), hs2 0 2 (by omega), hs12 0 2 (by omega),
        put_same hp (by simp) (by simp), hflag 48 (by decide)]
    · rw [hs 2 2 (by omega), hs8 2 2 (by omega), hs40 2 2 (by omega), put_same h2 (by simp) (by simp),
        hflag _ (by split <;> omega)]
      have : tf.isLba48 = 0 := hx
      simp [ataFlagsOf, this]
    · rw [hs 4 4 (by omega), hs8 4 4 (by omega), hs40 4 4 (by omega), hs2 4 4 (by omega), hs12 4 4 (by omega),
        hs0 4 4 (by omega)]
    · rw [hs 8 4 (by omega), put_same h6' (by simp) (by simp), leVal_leBytes]
    · rw [hs 12 4 (by omega), hs8 12 4 (by omega), hs40 12 4 (by omega), hs2 12 4 (by omega),
        put_same h1 (by simp) (by simp), leVal_leBytes]
    · rw [hs 16 8 (by omega), hs8 16 8 (by omega), hs40 16 8 (by omega), hs2 16 8 (by omega), hs12 16 8 (by omega),
        hs0 16 8 (by omega)]
    · rw [put_same hl (by simp) (by simp), leVal_leBytes]
    · rw [hs 32 8 (by omega), hs8 32 8 (by omega), hs40 32 8 (by omega), hs2 32 8 (by omega), hs12 32 8 (by omega),
        hs0 32 8 (by omega)]
      exact (if_pos hx).symm
    · rw [hs 40 8 (by omega), hs8 40 8 (by omega), put_same h3 (by simp [hcl]) (by simp [hcl])]
  · have hform : ataFields rw tf len to p =
        copyAt (copyAt (copyAt (copyAt (copyAt (copyAt (copyAt p 0 (leBytes 2 48)) 12 (leBytes 4 to)) 2
          (leBytes 2 (if rw then 4 else 2))) 2 (leBytes 2 ((if rw then 4 else 2) ||| 8))) 32 (previousRegs tf)) 40
          (currentRegs tf)) 8 (leBytes 4 len) := by
      unfold ataFields; simp [hx, currentRegs, previousRegs]
    rw [hform] at hl ⊢
    have hs (j n : Nat) (hd : j + n ≤ 24 ∨ 32 ≤ j) := put_other (i := 24) (d := leBytes 8 b) (j := j) (n := n) hl (by simp)
      (by simpa using hd)
    have hs8 (j n : Nat) (hd : j + n ≤ 8 ∨ 12 ≤ j) := put_other (i := 8) (d := leBytes 4 len) (j := j) (n := n) h6 (by simp)
      (by simpa using hd)
    have hs40 (j n : Nat) (hd : j + n ≤ 40 ∨ 48 ≤ j) := put_other (i := 40) (d := currentRegs tf) (j := j) (n := n) h5 (by simp [hcl])
      (by simpa [hcl] using hd)
    have hs32 (j n : Nat) (hd : j + n ≤ 32 ∨ 40 ≤ j) := put_other (i := 32) (d := previousRegs tf) (j := j) (n := n) h4 (by simp [hpl])
      (by simpa [hpl] using hd)
    have hs2' (j n : Nat) (hd : j + n ≤ 2 ∨ 4 ≤ j) := put_other (i := 2) (d := leBytes 2 ((if rw then 4 else 2) ||| 8)) (j := j)
      (n := n) h3 (by simp) (by simpa using hd)
    have hs2 (j n : Nat) (hd : j + n ≤ 2 ∨ 4 ≤ j) := put_other (i := 2) (d := leBytes 2 (if rw then 4 else 2)) (j := j) (n := n) h2
      (by simp) (by simpa using hd)
    have hs12 (j n : Nat) (hd : j + n ≤ 12 ∨ 16 ≤ j) := put_other (i := 12) (d := leBytes 4 to) (j := j) (n := n) h1
      (by simp) (by simpa using hd)
    have hs0 (j n : Nat) (hd : j + n ≤ 0 ∨ 2 ≤ j) := put_other (i := 0) (d := leBytes 2 48) (j := j) (n := n) hp
      (by simp) (by simpa using hd)
    rw [AtaView.mk.injEq]
    refine ⟨?_, ?_, ?_, ?_, ?_, ?_, ?_, ?_, ?_⟩
    · rw [hs 0 2 (by omega), hs8 0 2 (by omega), hs40 0 2 (by omega), hs32 0 2 (by omega), hs2' 0 2 (by omega),
        hs2 0 2 (by omega), hs12 0 2 (by omega), put_same hp (by simp) (by simp), hflag 48 (by decide)]
    · rw [hs 2 2 (by omega), hs8 2 2 (by omega), hs40 2 2 (by omega), hs32 2 2 (by omega),
        put_same h3 (by simp) (by simp), hflag _ (by cases rw <;> decide)]
      have : ¬ tf.isLba48 = 0 := hx
      simp only [ataFlagsOf, this, if_false]
      cases rw <;> rfl
    · rw [hs 4 4 (by omega), hs8 4 4 (by omega), hs40 4 4 (by omega), hs32 4 4 (by omega), hs2' 4 4 (by omega),
        hs2 4 4 (by omega), hs12 4 4 (by omega), hs0 4 4 (by omega)]
    · rw [hs 8 4 (by omega), put_same h6 (by simp) (by simp), leVal_leBytes]
    · rw [hs 12 4 (by omega), hs8 12 4 (by omega), hs40 12 4 (by omega), hs32 12 4 (by omega), hs2' 12 4 (by omega),
        hs2 12 4 (by omega), put_same h1 (by simp) (by simp), leVal_leBytes]
    · rw [hs 16 8 (by omega), hs8 16 8 (by omega), hs40 16 8 (by omega), hs32 16 8 (by omega), hs2' 16 8 (by omega),
        hs2 16 8 (by omega), hs12 16 8 (by omega), hs0 16 8 (by omega)]
    · rw [put_same hl (by simp) (by simp), leVal_leBytes]
    · rw [hs 32 8 (by omega), hs8 32 8 (by omega), hs40 32 8 (by omega), put_same h4 (by simp [hpl]) (by simp [hpl])]
      exact (if_neg hx).symm
    · rw [hs 40 8 (by omega), hs8 40 8 (by omega), put_same h5 (by simp [hcl]) (by simp [hcl])]

theorem scsiFields_length (rw : Bool) (cdb : Bytes) (len to : Nat) (p : Bytes) (hp : p.length = 96)
    (hc : cdb.length ≤ 16) : (scsiFields rw cdb len to p).length = 96 := by
  unfold scsiFields
  dsimp only
  refine put_length (put_length (put_length (put_length (put_length (put_length (put_length (put_length hp
    ?_) ?_) ?_) ?_) ?_) ?_) ?_) ?_
  all_goals first
    | omega
    | (simp only [leBytes_length, List.length_cons, List.length_nil]; omega)

/-- Every field of the SCSI record after a round wrote it. -/
theorem scsiFields_view (rw : Bool) (cdb : Bytes) (len to b : Nat) (p : Bytes) (hp : p.length = 96)
    (hc : cdb.length ≤ 16) :
    scsiView (copyAt (scsiFields rw cdb len to p) 24 (leBytes 8 b)) =
      { length := 56, status := leVal (slice p 2 1), address := slice p 3 3, cdbLength := cdb.length, senseLength := 32,
        dataIn := if rw then 0 else 1, transferLength := len % 2 ^ 32, timeout := to % 2 ^ 32, dataBuffer := b % 2 ^ 64,
        senseOffset := 60, cdb := cdb, sense := slice p 60 32 } := by
  have hl := scsiFields_length rw cdb len to p hp hc
  have h1 := put_length (i := 0) (d := leBytes 2 56) hp (by simp)
  have h2 := put_length (i := 16) (d := leBytes 4 to) h1 (by simp)
  have h3 := put_length (i := 8) (d := [if rw then 0#8 else 1#8]) h2 (by simp)
  have h4 := put_length (i := 7) (d := [32#8]) h3 (by simp)
  have h5 := put_length (i := 32) (d := leBytes 4 60) h4 (by simp)
  have h6 := put_length (i := 6) (d := [BitVec.ofNat 8 cdb.length]) h5 (by simp)
  have h7 := put_length (i := 36) (d := cdb) h6 (by omega)
  unfold scsiFields at hl ⊢
  dsimp only at hl ⊢
  have e24 (j n : Nat) (hd : j + n ≤ 24 ∨ 32 ≤ j) := put_other (i := 24) (d := leBytes 8 b) (j := j) (n := n) hl (by simp)
    (by simpa using hd)
  have e12 (j n : Nat) (hd : j + n ≤ 12 ∨ 16 ≤ j) := put_other (i := 12) (d := leBytes 4 len) (j := j) (n := n) h7 (by simp)
    (by simpa using hd)
  have e36 (j n : Nat) (hd : j + n ≤ 36 ∨ 52 ≤ j) := put_other (i := 36) (d := cdb) (j := j) (n := n) h6 (by omega)
    (by omega)
  have e6 (j n : Nat) (hd : j + n ≤ 6 ∨ 7 ≤ j) := put_other (i := 6) (d := [BitVec.ofNat 8 cdb.length]) (j := j) (n := n) h5
    (by simp) (by simpa using hd)
  have e32 (j n : Nat) (hd : j + n ≤ 32 ∨ 36 ≤ j) := put_other (i := 32) (d := leBytes 4 60) (j := j) (n := n) h4 (by simp)
    (by simpa using hd)
  have e7 (j n : Nat) (hd : j + n ≤ 7 ∨ 8 ≤ j) := put_other (i := 7) (d := [32#8]) (j := j) (n := n) h3 (by simp)
    (by simpa using hd)
  have e8 (j n : Nat) (hd : j + n ≤ 8 ∨ 9 ≤ j) := put_other (i := 8) (d := [if rw then 0#8 else 1#8]) (j := j) (n := n) h2 (by simp)
    (by simpa using hd)
  have e16 (j n : Nat) (hd : j + n ≤ 16 ∨ 20 ≤ j) := put_other (i := 16) (d := leBytes 4 to) (j := j) (n := n) h1 (by simp)
    (by simpa using hd)
  have e0 (j n : Nat) (hd : j + n ≤ 0 ∨ 2 ≤ j) := put_other (i := 0) (d := leBytes 2 56) (j := j) (n := n) hp (by simp)
    (by simpa using hd)
  have hclen : leVal [BitVec.ofNat 8 cdb.length] = cdb.length := by
    simp only [leVal, BitVec.toNat_ofNat]; omega
  have hlen : leVal (slice (copyAt (copyAt (copyAt (copyAt (copyAt (copyAt (copyAt (copyAt (copyAt p 0 (leBytes 2 56)) 16
      (leBytes 4 to)) 8 [if rw then 0#8 else 1#8]) 7 [32#8]) 32 (leBytes 4 60)) 6 [BitVec.ofNat 8 cdb.length]) 36 cdb) 12
      (leBytes 4 len)) 24 (leBytes 8 b)) 6 1) = cdb.length := by
    rw [e24 6 1 (by omega), e12 6 1 (by omega), e36 6 1 (by omega), put_same h5 (by simp) (by simp), hclen]
  unfold scsiView
  rw [ScsiView.mk.injEq]
  refine ⟨?_, ?_, ?_, ?_, ?_, ?_, ?_, ?_, ?_, ?_, ?_, ?_⟩
  · rw [e24 0 2 (by omega), e12 0 2 (by omega), e36 0 2 (by omega), e6 0 2 (by omega), e32 0 2 (by omega),
      e7 0 2 (by omega), e8 0 2 (by omega), e16 0 2 (by omega), put_same hp (by simp) (by simp), leVal_leBytes]
  · rw [e24 2 1 (by omega), e12 2 1 (by omega), e36 2 1 (by omega), e6 2 1 (by omega), e32 2 1 (by omega),
      e7 2 1 (by omega), e8 2 1 (by omega), e16 2 1 (by omega), e0 2 1 (by omega)]
  · rw [e24 3 3 (by omega), e12 3 3 (by omega), e36 3 3 (by omega), e6 3 3 (by omega), e32 3 3 (by omega),
      e7 3 3 (by omega), e8 3 3 (by omega), e16 3 3 (by omega), e0 3 3 (by omega)]
  · exact hlen
  · rw [e24 7 1 (by omega), e12 7 1 (by omega), e36 7 1 (by omega), e6 7 1 (by omega), e32 7 1 (by omega),
      put_same h3 (by simp) (by simp)]
    rfl
  · rw [e24 8 1 (by omega), e12 8 1 (by omega), e36 8 1 (by omega), e6 8 1 (by omega), e32 8 1 (by omega),
      e7 8 1 (by omega), put_same h2 (by simp) (by simp)]
    cases rw <;> rfl
  · rw [e24 12 4 (by omega), put_same h7 (by simp) (by simp), leVal_leBytes]
  · rw [e24 16 4 (by omega), e12 16 4 (by omega), e36 16 4 (by omega), e6 16 4 (by omega), e32 16 4 (by omega),
      e7 16 4 (by omega), e8 16 4 (by omega), put_same h1 (by simp) (by simp), leVal_leBytes]
  · rw [put_same hl (by simp) (by simp), leVal_leBytes]
  · rw [e24 32 4 (by omega), e12 32 4 (by omega), e36 32 4 (by omega), e6 32 4 (by omega),
      put_same h4 (by simp) (by simp), leVal_leBytes]
  · rw [hlen, e24 36 _ (by omega), e12 36 _ (by omega), put_same h6 rfl (by omega)]
  · rw [e24 60 32 (by omega), e12 60 32 (by omega), e36 60 32 (by omega), e6 60 32 (by omega), e32 60 32 (by omega),
      e7 60 32 (by omega), e8 60 32 (by omega), e16 60 32 (by omega), e0 60 32 (by omega)]


/-! ### The three commands -/

/-- The pass-through function behind each command. -/
def passOf (op : PassOp) (rw : Bool) (to : Nat) : WinPass :=
  match op with
  | .ataTask tf => winAtaPass rw tf to
  | .scsiTask tf => winScsiPass rw (fun _ => winTaskCdb tf) to
  | .scsiSecurity p c => winScsiPass rw (winSecCdb rw p c) to

theorem passOf_prog (op : PassOp) (h : Nat) (rw : Bool) (data : Bytes) (addr base to : Nat) :
    op.prog h rw data addr base to = (passOf op rw to).run h rw data addr base := by
  cases op <;> rfl

theorem winTaskCdb_length (tf : Tf) : (winTaskCdb tf).length ≤ 16 := by
  unfold winTaskCdb
  split <;> simp

theorem winSecCdb_length (rw : Bool) (p : Byte) (c : BitVec 16) (n : Nat) : (winSecCdb rw p c n).length = 12 := by
  simp [winSecCdb, beBytes]

theorem winAtaPass_ok (rw : Bool) (tf : Tf) (to : Nat) : (winAtaPass rw tf to).Ok where
  size := ⟨by show 32 ≤ 48; decide, by show 48 < 256; decide⟩
  fields n p hp := ataFields_length rw tf n to p hp
  failed e p := by simp [winAtaPass, ataVerdict]

theorem winScsiPass_ok (rw : Bool) (cdb : Nat → Bytes) (to : Nat) (hc : ∀ n, (cdb n).length ≤ 16) :
    (winScsiPass rw cdb to).Ok where
  size := ⟨by show 32 ≤ 96; decide, by show 96 < 256; decide⟩
  fields n p hp := scsiFields_length rw (cdb n) n to p hp (hc n)
  failed e p := by simp [winScsiPass, scsiVerdict]

theorem passOf_ok (op : PassOp) (rw : Bool) (to : Nat) : (passOf op rw to).Ok := by
  cases op with
  | ataTask tf => exact winAtaPass_ok rw tf to
  | scsiTask tf => exact winScsiPass_ok rw _ to (fun _ => winTaskCdb_length tf)
  | scsiSecurity p c => exact winScsiPass_ok rw _ to (fun n => by rw [winSecCdb_length]; omega)

theorem passOf_codes (op : PassOp) (rw : Bool) (to : Nat) :
    (passOf op rw to).direct = op.directCode ∧ (passOf op rw to).buffered = op.bufferedCode ∧
    (passOf op rw to).size = op.recordSize := by
  cases op <;> exact ⟨rfl, rfl, rfl⟩

/-- The data of a combined buffer begins at the offset its record names. -/
theorem payload_buffered (w : WinPass) (hw : w.Ok) (p d : Bytes) (hp : p.length = w.size) (h code n : Nat) (b : Bytes)
    (hb : b.length = w.size) (hpb : p = copyAt b 24 (leBytes 8 w.size)) :
    payload (.ioctl h code (p ++ d) n none) = some d := by
  have hs := hw.size
  have h1 : slice (p ++ d) 24 8 = leBytes 8 w.size := by
    rw [hpb]
    have : slice (copyAt b 24 (leBytes 8 w.size) ++ d) 24 8 = slice (copyAt b 24 (leBytes 8 w.size)) 24 8 := by
      unfold slice
      rw [List.drop_append_of_le_length (by rw [← hpb]; omega),
        List.take_append_of_le_length (by rw [List.length_drop, ← hpb]; omega)]
    rw [this, put_same hb (by simp) (by simp; omega)]
  have h2 : leVal (leBytes 8 w.size) = w.size := by
    rw [leVal_leBytes]
    apply Nat.mod_eq_of_lt
    have : (256 : Nat) ^ 8 > 256 := by decide
    omega
  simp only [payload, h1, h2, Option.some.injEq]
  rw [← hp, List.drop_left]

/-- C73: whatever the caller supplied, a write (taskfile or security send) hands Windows only zeros, in every request it
makes, and leaves the caller's buffer zeroed. -/
theorem win_writes_are_zeros (op : PassOp) (h : Nat) (data : Bytes) (addr base to : Nat) (hd : data ≠ [])
    (env : Prog.Env WReq WRep) (hist : Prog.Trace WReq WRep) :
    (∃ e, (OutT.run env hist (op.prog h true data addr base to)).1 = .ret (e, zeros data.length)) ∧
    (OutT.run env hist (op.prog h true data addr base to)).2 ≠ [] ∧
    ∀ x ∈ (OutT.run env hist (op.prog h true data addr base to)).2, payload x.1 = some (zeros data.length) := by
  rw [passOf_prog]
  have hw := passOf_ok op true to
  obtain ⟨a, c, d1, p, q, r, hp, hq, hr, -, -, -, hpl, hz, -, -, h1, h2⟩ :=
    winPass_run (passOf op true to) hw h true data addr base env hist hd
  obtain ⟨hc, hd1⟩ := hz rfl
  have hqp : payload q = some (zeros data.length) := by rw [hq, payload, hc]
  cases he : r.err with
  | none =>
    rw [h1 he]
    refine ⟨⟨_, by rw [hd1]⟩, by simp, ?_⟩
    intro x hx
    simp only [List.mem_singleton] at hx
    rw [hx]; exact hqp
  | some e =>
    obtain ⟨p2, q2, r2, hp2, hpl2, hq2, -, h3, h4⟩ := h2 e he
    have hq2p : payload q2 = some (zeros data.length) := by
      rw [hq2, ← hd1]
      exact payload_buffered _ hw _ _ hpl2 _ _ _ _ (hw.fields _ _ (by rw [delivered_length, hpl])) hp2
    have hall : ∀ x ∈ [(q, r), (q2, r2)], payload x.1 = some (zeros data.length) := by
      intro x hx
      simp only [List.mem_cons, List.not_mem_nil, or_false] at hx
      rcases hx with rfl | rfl
      · exact hqp
      · exact hq2p
    cases he2 : r2.err with
    | none =>
      rw [h3 he2]
      exact ⟨⟨_, by rw [if_pos rfl, hd1]⟩, by simp, hall⟩
    | some e2 =>
      rw [h4 e2 he2]
      exact ⟨⟨_, by rw [hd1]⟩, by simp, hall⟩

/-- C73, C96: reads. One or two requests, the first with the direct code and the second only if it failed. The buffer is
not cleared: what the kernel does not overwrite remains, the second request carries the caller's bytes to the kernel, and
if both requests fail an unaligned buffer is unchanged. (A successful direct read through an aligned copy fills the rest
with zeros.) -/
theorem win_reads (op : PassOp) (h : Nat) (data : Bytes) (addr base to : Nat) (hd : data ≠ [])
    (env : Prog.Env WReq WRep) (hist : Prog.Trace WReq WRep) :
    ∃ e d', (OutT.run env hist (op.prog h false data addr base to)).1 = .ret (e, d') ∧ d'.length = data.length ∧
      ((∃ q r, (OutT.run env hist (op.prog h false data addr base to)).2 = [(q, r)] ∧ r.err = none ∧
          payload q = some (if addr % 512 = 0 then data else zeros data.length) ∧
          d' = receivedInto (if addr % 512 = 0 then data else zeros data.length) r.mem) ∨
       (∃ q r q2 r2, (OutT.run env hist (op.prog h false data addr base to)).2 = [(q, r), (q2, r2)] ∧ r.err ≠ none ∧
          payload q = some (if addr % 512 = 0 then data else zeros data.length) ∧
          payload q2 = some (if addr % 512 = 0 then receivedInto data r.mem else data) ∧
          (r2.err = none → d' = delivered (if addr % 512 = 0 then receivedInto data r.mem else data)
            (r2.out.drop op.recordSize)) ∧
          (r2.err ≠ none → d' = if addr % 512 = 0 then receivedInto data r.mem else data))) := by
  rw [passOf_prog]
  have hw := passOf_ok op false to
  obtain ⟨a, c, d1, p, q, r, hp, hq, hr, -, -, hd1, hpl, -, ha, hu, h1, h2⟩ :=
    winPass_run (passOf op false to) hw h false data addr base env hist hd
  have hqp : payload q = some (if addr % 512 = 0 then data else zeros data.length) := by
    rw [hq, payload]
    split
    · rename_i h0; rw [(ha rfl h0).2.1]
    · rename_i h0; rw [(hu rfl h0).1]
  cases he : r.err with
  | none =>
    rw [h1 he]
    refine ⟨_, _, rfl, hd1, .inl ⟨q, r, rfl, he, hqp, ?_⟩⟩
    split
    · rename_i h0; exact (ha rfl h0).2.2
    · rename_i h0; exact (hu rfl h0).2.2 he
  | some e =>
    obtain ⟨p2, q2, r2, hp2, hpl2, hq2, -, h3, h4⟩ := h2 e he
    have hdd : d1 = if addr % 512 = 0 then receivedInto data r.mem else data := by
      split
      · rename_i h0; exact (ha rfl h0).2.2
      · rename_i h0; exact (hu rfl h0).2.1 (by rw [he]; simp)
    have hq2p : payload q2 = some d1 := by
      rw [hq2]
      exact payload_buffered _ hw _ _ hpl2 _ _ _ _ (hw.fields _ _ (by rw [delivered_length, hpl])) hp2
    have hsz := (passOf_codes op false to).2.2
    cases he2 : r2.err with
    | none =>
      rw [h3 he2]
      refine ⟨_, _, rfl, ?_, .inr ⟨q, r, q2, r2, rfl, by rw [he]; simp, hqp, by rw [hq2p, hdd], fun _ => ?_,
        fun hx => absurd he2 hx⟩⟩
      · rw [if_neg (by simp), delivered_length, hd1]
      · rw [if_neg (by simp), hsz, hdd]
    | some e2 =>
      rw [h4 e2 he2]
      exact ⟨_, _, rfl, hd1, .inr ⟨q, r, q2, r2, rfl, by rw [he]; simp, hqp, by rw [hq2p, hdd],
        fun hx => by rw [he2] at hx; simp at hx, fun _ => hdd⟩⟩

/-- C96: the requests of any command, in order: the direct control code on the caller's handle with the record alone;
only if that fails the buffered code with record and data in one buffer; never more. An empty or nil buffer panics
before any request. -/
theorem win_requests (op : PassOp) (h : Nat) (rw : Bool) (data : Bytes) (addr base to : Nat)
    (env : Prog.Env WReq WRep) (hist : Prog.Trace WReq WRep) :
    (data = [] → OutT.run env hist (op.prog h rw data addr base to) = (.panic, [])) ∧
    (data ≠ [] → ∃ p a c r, p.length = op.recordSize ∧ a % 512 = 0 ∧ c.length = data.length ∧
      ((r.err = none ∧ (OutT.run env hist (op.prog h rw data addr base to)).2 =
          [(.ioctl h op.directCode p op.recordSize (some (a, c)), r)]) ∨
       (r.err ≠ none ∧ ∃ b r2, b.length = op.recordSize + data.length ∧
          (OutT.run env hist (op.prog h rw data addr base to)).2 =
            [(.ioctl h op.directCode p op.recordSize (some (a, c)), r), (.ioctl h op.bufferedCode b b.length none, r2)]))) := by
  rw [passOf_prog]
  obtain ⟨hk1, hk2, hk3⟩ := passOf_codes op rw to
  refine ⟨fun he => by rw [he]; exact winPass_empty _ _ _ _ _ _ _, fun hd => ?_⟩
  have hw := passOf_ok op rw to
  obtain ⟨a, c, d1, p, q, r, hp, hq, hr, ha, hc, hd1, hpl, -, -, -, h1, h2⟩ :=
    winPass_run (passOf op rw to) hw h rw data addr base env hist hd
  rw [hk1, hk3] at hq
  refine ⟨p, a, c, r, by rw [hpl, hk3], ha, hc, ?_⟩
  cases he : r.err with
  | none => exact .inl ⟨rfl, by rw [h1 he, hq]⟩
  | some e =>
    obtain ⟨p2, q2, r2, hp2, hpl2, hq2, -, h3, h4⟩ := h2 e he
    rw [hk2] at hq2
    refine .inr ⟨by simp, p2 ++ d1, r2, by rw [List.length_append, hpl2, hd1, hk3], ?_⟩
    cases he2 : r2.err with
    | none => rw [h3 he2, hq, hq2]
    | some e2 => rw [h4 e2 he2, hq, hq2]


/-! ### Results -/

theorem ataVerdict_none (p : Bytes) : ataVerdict none p = ataReport (p.getD 46 0) := by
  have hb : ∀ b : Byte, (b &&& 0x09#8 ≠ 0#8) ↔ errOrDrq b := by decide
  unfold ataVerdict ataReport
  simp only [if_true]
  by_cases h : errOrDrq (p.getD 46 0)
  · rw [if_pos h]; exact if_pos ((hb _).2 h)
  · rw [if_neg h]; exact if_neg (fun hh => h ((hb _).1 hh))

theorem fixedKey_iff (s : Bytes) : senseKey s = 0#8 ↔ fixedKey s = 0 := by
  have hb : ∀ b : Byte, (b &&& 0x0f#8 = 0#8) ↔ b.toNat % 16 = 0 := by decide
  exact hb _

theorem scsiVerdict_none (p : Bytes) : scsiVerdict none p = scsiReport p := by
  unfold scsiVerdict scsiReport
  dsimp only
  have h18 : (slice p 60 32).take 18 = slice p 60 18 := by
    unfold slice
    rw [List.take_take]; rfl
  by_cases h : fixedKey (slice p 60 32) = 0
  · rw [if_pos h, (fixedKey_iff _).2 h]; simp
  · rw [if_neg h]
    have : senseKey (slice p 60 32) ≠ 0#8 := fun hh => h ((fixedKey_iff _).1 hh)
    simp [this, h18]

theorem getD_slice (p : Bytes) (i n j : Nat) (hj : j < n) :
    p.getD (i + j) 0#8 = (slice p i n).getD j 0#8 := by
  rw [List.getD_eq_getElem?_getD, List.getD_eq_getElem?_getD, getElem?_slice, if_pos hj]

/-- C74: the result of the ATA driver. After a successful direct request it is judged by the status byte Windows put in
the record; after a failed direct and a successful buffered request by the command byte the driver itself had put there,
whatever the drive reported; if both fail it is the second error. -/
theorem win_ata_result (h : Nat) (rw : Bool) (tf : Tf) (data : Bytes) (addr base to : Nat) (hd : data ≠ [])
    (env : Prog.Env WReq WRep) (hist : Prog.Trace WReq WRep) :
    ∃ e d', (OutT.run env hist (winAtaTask h rw tf data addr base to)).1 = .ret (e, d') ∧
      ((∃ inb m r, (OutT.run env hist (winAtaTask h rw tf data addr base to)).2 = [(.ioctl h 0x4d030 inb 48 m, r)] ∧
          r.err = none ∧ e = ataReport (if 46 < r.out.length then r.out.getD 46 0 else tf.command)) ∨
       (∃ q r q2 r2, (OutT.run env hist (winAtaTask h rw tf data addr base to)).2 = [(q, r), (q2, r2)] ∧ r.err ≠ none ∧
          ((r2.err = none ∧ e = ataReport tf.command) ∨ (∃ e2, r2.err = some e2 ∧ e = some e2)))) := by
  have hw := winAtaPass_ok rw tf to
  obtain ⟨a, c, d1, p, q, r, hp, hq, hr, -, -, hd1, hpl, -, -, -, h1, h2⟩ :=
    winPass_run (winAtaPass rw tf to) hw h rw data addr base env hist hd
  have hstat : ∀ b : Bytes, b.length = 48 → ∀ x,
      (copyAt (ataFields rw tf data.length to b) 24 (leBytes 8 x)).getD 46 0 = tf.command := by
    intro b hb x
    have hv := congrArg AtaView.current (ataFields_view rw tf data.length to x b hb)
    simp only [ataView] at hv
    have hl : (copyAt (ataFields rw tf data.length to b) 24 (leBytes 8 x)).length = 48 :=
      put_length (ataFields_length rw tf data.length to b hb) (by simp)
    have := getD_slice (copyAt (ataFields rw tf data.length to b) 24 (leBytes 8 x)) 40 8 6 (by omega)
    rw [hv] at this
    exact this
  have hpc : p.getD 46 0 = tf.command := by
    rw [hp]
    exact hstat _ (by simp [winAtaPass]) _
  have hpl' : p.length = 48 := hpl
  have hafter : (delivered p r.out).getD 46 0 = if 46 < r.out.length then r.out.getD 46 0 else tf.command := by
    rw [← hpc]
    unfold delivered
    simp only [List.getD_eq_getElem?_getD, List.getElem?_append, List.length_take, List.getElem?_take, List.getElem?_drop,
      hpl']
    by_cases hlt : 46 < r.out.length
    · have e1 : 46 < min 48 r.out.length := by omega
      simp only [hlt, e1, if_true, show 46 < 48 by omega]
    · have e1 : ¬ 46 < min 48 r.out.length := by omega
      simp only [hlt, e1, if_false]
      congr 2; omega
  unfold winAtaTask
  cases he : r.err with
  | none =>
    rw [h1 he]
    refine ⟨_, _, rfl, .inl ⟨p, some (a, c), r, by rw [hq]; rfl, he, ?_⟩⟩
    show ataVerdict none (delivered p r.out) = _
    rw [ataVerdict_none, hafter]
  | some e =>
    obtain ⟨p2, q2, r2, hp2, hpl2, hq2, -, h3, h4⟩ := h2 e he
    cases he2 : r2.err with
    | none =>
      rw [h3 he2]
      refine ⟨_, _, rfl, .inr ⟨q, r, q2, r2, rfl, by rw [he]; simp, .inl ⟨he2, ?_⟩⟩⟩
      show ataVerdict none p2 = _
      rw [ataVerdict_none, hp2]
      rw [show (winAtaPass rw tf to).fields data.length (delivered p r.out) = ataFields rw tf data.length to (delivered p r.out)
        from rfl, hstat _ (by rw [delivered_length, hpl']) _]
    | some e2 =>
      rw [h4 e2 he2]
      exact ⟨_, _, rfl, .inr ⟨q, r, q2, r2, rfl, by rw [he]; simp, .inr ⟨e2, he2, rfl⟩⟩⟩

/-- C96: the result of the two SCSI commands: judged by the sense key in the record Windows left behind, after whichever
request succeeded; if both fail it is the second error. -/
theorem win_scsi_result (op : PassOp) (hop : ∀ tf, op ≠ .ataTask tf) (h : Nat) (rw : Bool) (data : Bytes)
    (addr base to : Nat) (hd : data ≠ []) (env : Prog.Env WReq WRep) (hist : Prog.Trace WReq WRep) :
    ∃ e d', (OutT.run env hist (op.prog h rw data addr base to)).1 = .ret (e, d') ∧
      ((∃ inb m r, (OutT.run env hist (op.prog h rw data addr base to)).2 = [(.ioctl h 0x4d014 inb 96 m, r)] ∧
          inb.length = 96 ∧ r.err = none ∧ e = scsiReport (delivered inb r.out)) ∨
       (∃ q r inb n r2, (OutT.run env hist (op.prog h rw data addr base to)).2 =
            [(q, r), (.ioctl h 0x4d004 inb n none, r2)] ∧ r.err ≠ none ∧
          ((r2.err = none ∧ e = scsiReport ((delivered inb r2.out).take 96)) ∨
           (∃ e2, r2.err = some e2 ∧ e = some e2)))) := by
  rw [passOf_prog]
  have hw := passOf_ok op rw to
  have hv : (passOf op rw to).verdict = scsiVerdict ∧ (passOf op rw to).copyBack = true ∧
      (passOf op rw to).direct = 0x4d014 ∧ (passOf op rw to).buffered = 0x4d004 ∧ (passOf op rw to).size = 96 := by
    cases op with
    | ataTask tf => exact absurd rfl (hop tf)
    | scsiTask tf => exact ⟨rfl, rfl, rfl, rfl, rfl⟩
    | scsiSecurity p c => exact ⟨rfl, rfl, rfl, rfl, rfl⟩
  obtain ⟨hv1, hv2, hv3, hv4, hv5⟩ := hv
  obtain ⟨a, c, d1, p, q, r, hp, hq, hr, -, -, hd1, hpl, -, -, -, h1, h2⟩ :=
    winPass_run (passOf op rw to) hw h rw data addr base env hist hd
  rw [hv3, hv5] at hq
  rw [hv5] at hpl
  cases he : r.err with
  | none =>
    rw [h1 he]
    refine ⟨_, _, rfl, .inl ⟨p, some (a, c), r, by rw [hq], hpl, he, ?_⟩⟩
    rw [hv1, scsiVerdict_none]
  | some e =>
    obtain ⟨p2, q2, r2, hp2, hpl2, hq2, -, h3, h4⟩ := h2 e he
    rw [hv4] at hq2
    rw [hv5] at hpl2
    cases he2 : r2.err with
    | none =>
      rw [h3 he2]
      refine ⟨_, _, rfl, .inr ⟨q, r, p2 ++ d1, _, r2, by rw [hq2], by rw [he]; simp, .inl ⟨he2, ?_⟩⟩⟩
      rw [hv1, scsiVerdict_none, ← hpl2, delivered_append_take]
      unfold WinPass.finalRec
      rw [hv2]; rfl
    | some e2 =>
      rw [h4 e2 he2]
      exact ⟨_, _, rfl, .inr ⟨q, r, p2 ++ d1, _, r2, by rw [hq2], by rw [he]; simp, .inr ⟨e2, he2, rfl⟩⟩⟩


/-! ### The records sent -/

theorem slice_append_left (p d : Bytes) (i n : Nat) (h : i + n ≤ p.length) : slice (p ++ d) i n = slice p i n := by
  unfold slice
  rw [List.drop_append_of_le_length (by omega), List.take_append_of_le_length (by rw [List.length_drop]; omega)]

/-- C97: the records of an ATA taskfile command. Both requests carry the registers, the direction and 48-bit flags, the
length of the data and the timeout in seconds; the direct one points at the memory, the buffered one at offset 48. The
address and reserved bytes, and for a 28-bit command the previous registers, are 0 in the first record and in the
second whatever the failed first call left there. -/
theorem win_ata_records (h : Nat) (rw : Bool) (tf : Tf) (data : Bytes) (addr base to : Nat) (hd : data ≠ [])
    (env : Prog.Env WReq WRep) (hist : Prog.Trace WReq WRep) :
    ∃ inb a c r rest, (OutT.run env hist (winAtaTask h rw tf data addr base to)).2 =
        (.ioctl h 0x4d030 inb 48 (some (a, c)), r) :: rest ∧
      ataView inb =
        { length := 48, flags := ataFlagsOf rw tf, address := zeros 4, transferLength := data.length % 2 ^ 32,
          timeout := to % 2 ^ 32, reserved := zeros 8, dataBuffer := a % 2 ^ 64,
          previous := if tf.isLba48 = 0 then zeros 8 else previousRegs tf, current := currentRegs tf } ∧
      ∀ x ∈ rest, ∃ inb2 n, x.1 = .ioctl h 0x4d02c inb2 n none ∧ n = inb2.length ∧
        ataView (inb2.take 48) = { ataView inb with
            address := slice (delivered inb r.out) 4 4, reserved := slice (delivered inb r.out) 16 8, dataBuffer := 48,
            previous := if tf.isLba48 = 0 then slice (delivered inb r.out) 32 8 else previousRegs tf } := by
  have hw := winAtaPass_ok rw tf to
  obtain ⟨a, c, d1, p, q, r, hp, hq, hr, -, -, hd1, hpl, -, -, -, h1, h2⟩ :=
    winPass_run (winAtaPass rw tf to) hw h rw data addr base env hist hd
  have hz4 : ∀ i n, i + n ≤ 48 → slice (zeros 48) i n = zeros n := by
    intro i n hin
    unfold slice
    rw [drop_zeros, take_zeros]
    congr 1; omega
  have hv : ataView p =
      { length := 48, flags := ataFlagsOf rw tf, address := zeros 4,
        transferLength := data.length % 2 ^ 32, timeout := to % 2 ^ 32, reserved := zeros 8, dataBuffer := a % 2 ^ 64,
        previous := if tf.isLba48 = 0 then zeros 8 else previousRegs tf, current := currentRegs tf } := by
    rw [hp]
    rw [show (winAtaPass rw tf to).fields data.length (zeros (winAtaPass rw tf to).size) =
      ataFields rw tf data.length to (zeros 48) from rfl, ataFields_view rw tf data.length to a (zeros 48) (by simp)]
    rw [hz4 4 4 (by omega), hz4 16 8 (by omega), hz4 32 8 (by omega)]
  unfold winAtaTask
  cases he : r.err with
  | none =>
    rw [h1 he]
    exact ⟨p, a, c, r, [], by rw [hq]; rfl, hv, by simp⟩
  | some e =>
    obtain ⟨p2, q2, r2, hp2, hpl2, hq2, -, h3, h4⟩ := h2 e he
    have hpl' : p.length = 48 := hpl
    have hpl2' : p2.length = 48 := hpl2
    have hv2 : ataView ((p2 ++ d1).take 48) = { ataView p with
            address := slice (delivered p r.out) 4 4, reserved := slice (delivered p r.out) 16 8, dataBuffer := 48,
            previous := if tf.isLba48 = 0 then slice (delivered p r.out) 32 8 else previousRegs tf } := by
      rw [show (p2 ++ d1).take 48 = p2 by rw [← hpl2', List.take_left], hv, hp2]
      rw [show (winAtaPass rw tf to).fields data.length (delivered p r.out) =
        ataFields rw tf data.length to (delivered p r.out) from rfl,
        ataFields_view rw tf data.length to _ (delivered p r.out) (by rw [delivered_length, hpl'])]
      rfl
    have hrest : ∀ x ∈ [(q2, r2)], ∃ inb2 n, x.1 = WReq.ioctl h 0x4d02c inb2 n none ∧ n = inb2.length ∧
        ataView (inb2.take 48) = { ataView p with
            address := slice (delivered p r.out) 4 4, reserved := slice (delivered p r.out) 16 8, dataBuffer := 48,
            previous := if tf.isLba48 = 0 then slice (delivered p r.out) 32 8 else previousRegs tf } := by
      intro x hx
      simp only [List.mem_singleton] at hx
      rw [hx]
      exact ⟨p2 ++ d1, _, hq2, rfl, hv2⟩
    cases he2 : r2.err with
    | none =>
      rw [h3 he2]
      exact ⟨p, a, c, r, [(q2, r2)], by rw [hq]; rfl, hv, hrest⟩
    | some e2 =>
      rw [h4 e2 he2]
      exact ⟨p, a, c, r, [(q2, r2)], by rw [hq]; rfl, hv, hrest⟩

/-- The CDB of a SCSI command. -/
def cdbOf (op : PassOp) (rw : Bool) (n : Nat) : Bytes :=
  match op with
  | .scsiSecurity p c => winSecCdb rw p c n
  | .scsiTask tf => winTaskCdb tf
  | .ataTask _ => []

/-- C97: the records of the SCSI commands: direction, lengths, timeout in seconds, room for 32 bytes of sense data at
offset 60, and the CDB (whose content the next two theorems give). -/
theorem win_scsi_records (op : PassOp) (hop : ∀ tf, op ≠ .ataTask tf) (h : Nat) (rw : Bool) (data : Bytes)
    (addr base to : Nat) (hd : data ≠ []) (env : Prog.Env WReq WRep) (hist : Prog.Trace WReq WRep) :
    ∃ inb a c r rest, (OutT.run env hist (op.prog h rw data addr base to)).2 =
        (.ioctl h 0x4d014 inb 96 (some (a, c)), r) :: rest ∧
      scsiView inb =
        { length := 56, status := 0, address := zeros 3, cdbLength := (cdbOf op rw data.length).length,
          senseLength := 32, dataIn := if rw then 0 else 1, transferLength := data.length % 2 ^ 32, timeout := to % 2 ^ 32,
          dataBuffer := a % 2 ^ 64, senseOffset := 60, cdb := cdbOf op rw data.length, sense := zeros 32 } ∧
      ∀ x ∈ rest, ∃ inb2 n, x.1 = .ioctl h 0x4d004 inb2 n none ∧ n = inb2.length ∧
        scsiView (inb2.take 96) = { scsiView inb with
            status := leVal (slice (delivered inb r.out) 2 1), address := slice (delivered inb r.out) 3 3, dataBuffer := 96,
            sense := slice (delivered inb r.out) 60 32 } := by
  rw [passOf_prog]
  have hw := passOf_ok op rw to
  have hlen : (cdbOf op rw data.length).length ≤ 16 := by
    cases op with
    | ataTask tf => exact absurd rfl (hop tf)
    | scsiTask tf => exact winTaskCdb_length tf
    | scsiSecurity p c => show (winSecCdb rw p c data.length).length ≤ 16; rw [winSecCdb_length]; omega
  have hv : (passOf op rw to).direct = 0x4d014 ∧ (passOf op rw to).buffered = 0x4d004 ∧ (passOf op rw to).size = 96 ∧
      (∀ p, (passOf op rw to).fields data.length p = scsiFields rw (cdbOf op rw data.length) data.length to p) := by
    cases op with
    | ataTask tf => exact absurd rfl (hop tf)
    | scsiTask tf => exact ⟨rfl, rfl, rfl, fun _ => rfl⟩
    | scsiSecurity p c => exact ⟨rfl, rfl, rfl, fun _ => rfl⟩
  obtain ⟨hv1, hv2, hv3, hv4⟩ := hv
  obtain ⟨a, c, d1, p, q, r, hp, hq, hr, -, -, hd1, hpl, -, -, -, h1, h2⟩ :=
    winPass_run (passOf op rw to) hw h rw data addr base env hist hd
  rw [hv1, hv3] at hq
  rw [hv3] at hpl
  rw [hv3, hv4] at hp
  have hz : ∀ i n, i + n ≤ 96 → slice (zeros 96) i n = zeros n := by
    intro i n hin
    unfold slice
    rw [drop_zeros, take_zeros]
    congr 1; omega
  have hview : scsiView p =
      { length := 56, status := 0, address := zeros 3,
        cdbLength := (cdbOf op rw data.length).length, senseLength := 32, dataIn := if rw then 0 else 1,
        transferLength := data.length % 2 ^ 32, timeout := to % 2 ^ 32, dataBuffer := a % 2 ^ 64, senseOffset := 60,
        cdb := cdbOf op rw data.length, sense := zeros 32 } := by
    rw [hp, scsiFields_view rw _ data.length to a (zeros 96) (by simp) hlen,
      hz 2 1 (by omega), hz 3 3 (by omega), hz 60 32 (by omega)]
    rfl
  cases he : r.err with
  | none =>
    rw [h1 he]
    exact ⟨p, a, c, r, [], by rw [hq], hview, by simp⟩
  | some e =>
    obtain ⟨p2, q2, r2, hp2, hpl2, hq2, -, h3, h4⟩ := h2 e he
    rw [hv2] at hq2
    rw [hv3] at hpl2 hp2
    rw [hv4] at hp2
    have hview2 : scsiView ((p2 ++ d1).take 96) = { scsiView p with
            status := leVal (slice (delivered p r.out) 2 1), address := slice (delivered p r.out) 3 3, dataBuffer := 96,
            sense := slice (delivered p r.out) 60 32 } := by
      rw [show (p2 ++ d1).take 96 = p2 by rw [← hpl2, List.take_left], hview, hp2,
        scsiFields_view rw _ data.length to 96 (delivered p r.out) (by rw [delivered_length, hpl]) hlen]
    have hrest : ∀ x ∈ [(q2, r2)], ∃ inb2 n, x.1 = WReq.ioctl h 0x4d004 inb2 n none ∧ n = inb2.length ∧
        scsiView (inb2.take 96) = { scsiView p with
            status := leVal (slice (delivered p r.out) 2 1), address := slice (delivered p r.out) 3 3, dataBuffer := 96,
            sense := slice (delivered p r.out) 60 32 } := by
      intro x hx
      simp only [List.mem_singleton] at hx
      rw [hx]
      exact ⟨p2 ++ d1, _, hq2, rfl, hview2⟩
    cases he2 : r2.err with
    | none =>
      rw [h3 he2]
      exact ⟨p, a, c, r, [(q2, r2)], by rw [hq], hview, hrest⟩
    | some e2 =>
      rw [h4 e2 he2]
      exact ⟨p, a, c, r, [(q2, r2)], by rw [hq], hview, hrest⟩

/-- C97: the CDB the SCSI driver sends for a taskfile is an ATA PASS-THROUGH with the right registers, but with protocol 0
(hard reset), no transfer length, no direction and no EXTEND bit, whatever the command. -/
theorem win_task_cdb (tf : Tf) (rw : Bool) (n : Nat) :
    satDecode (cdbOf (.scsiTask tf) rw n) = some { satOf tf true rw false with
      protocol := 0, tLength := 0, byteBlock := 0, tDir := 0, ckCond := 0, extend := 0 } := by
  show satDecode (winTaskCdb tf) = _
  unfold winTaskCdb
  by_cases h : tf.isLba48 = 0#8
  · rw [if_neg (by simpa using h)]
    have h' : (tf.isLba48 != 0) = false := by simpa using h
    simp [satDecode, satOf, h, reg]
  · rw [if_pos h]
    have h' : (tf.isLba48 != 0) = true := by simpa using h
    simp [satDecode, satOf, h, reg]

/-- C97: the CDB of a security command. -/
theorem win_sec_cdb (p : Byte) (c : BitVec 16) (rw : Bool) (n : Nat) :
    (cdbOf (.scsiSecurity p c) rw n).length = 12 ∧
    (cdbOf (.scsiSecurity p c) rw n)[0]? = some (if rw then 0xb5 else 0xa2) ∧
    (cdbOf (.scsiSecurity p c) rw n)[1]? = some p ∧ beVal (slice (cdbOf (.scsiSecurity p c) rw n) 2 2) = c.toNat ∧
    slice (cdbOf (.scsiSecurity p c) rw n) 4 2 = [0, 0] ∧
    beVal (slice (cdbOf (.scsiSecurity p c) rw n) 6 4) = n % 2 ^ 32 ∧
    slice (cdbOf (.scsiSecurity p c) rw n) 10 2 = [0, 0] := by
  have hc : cdbOf (.scsiSecurity p c) rw n =
      [if rw then 0xb5#8 else 0xa2#8, p] ++ beBytes 2 c.toNat ++ [0#8, 0#8] ++ beBytes 4 n ++ [0#8, 0#8] := rfl
  rw [hc]
  refine ⟨by simp, by cases rw <;> rfl, rfl, ?_, rfl, ?_, rfl⟩
  · have : slice ([if rw then 0xb5#8 else 0xa2#8, p] ++ beBytes 2 c.toNat ++ [0#8, 0#8] ++ beBytes 4 n ++ [0#8, 0#8]) 2 2 =
        beBytes 2 c.toNat := rfl
    rw [this, beVal_beBytes]
    exact Nat.mod_eq_of_lt c.isLt
  · have : slice ([if rw then 0xb5#8 else 0xa2#8, p] ++ beBytes 2 c.toNat ++ [0#8, 0#8] ++ beBytes 4 n ++ [0#8, 0#8]) 6 4 =
        beBytes 4 n := rfl
    rw [this, beVal_beBytes]

/-! ### Opening -/

/-- Error or identity. -/
def identResult (e : Option GoErr) (d : Bytes) : Res Bytes := match e with
  | some e => .err e
  | none => .ok d

theorem winIdentify_run (base : Nat) (task : Bytes → Nat → WinM (Option GoErr × Bytes)) (env : Prog.Env WReq WRep)
    (hist t : Prog.Trace WReq WRep) (e : Option GoErr) (d : Bytes) (hd : d.length = 512)
    (h : OutT.run env hist (task (zeros 512) (newAlignedBuffer base 512 512).pointer) = (.ret (e, d), t)) :
    OutT.run env hist (winIdentify base task) = (.ret (identResult e d), t) := by
  obtain ⟨hf, hp, hl, hb⟩ := newAligned_fits base 512
  unfold winIdentify
  dsimp only
  rw [hb, OutT.run_bind_ret env hist h]
  cases e with
  | some e => simp [identResult]
  | none =>
    have hread : ∃ b e, (({ newAlignedBuffer base 512 512 with
        mem := copyAt (newAlignedBuffer base 512 512).mem (newAlignedBuffer base 512 512).off d } : ABuf).resetRead).read 512
        = .ret (b, d, e) := by
      unfold ABuf.read ABuf.resetRead
      simp only [hl, Nat.sub_zero, Nat.min_self, Nat.not_lt_zero, if_false, Nat.add_zero, gt_iff_lt]
      rw [if_neg (by omega)]
      have e1 := slice_copyAt_same (newAlignedBuffer base 512 512).mem (newAlignedBuffer base 512 512).off d
        (by rw [hd]; exact hf)
      rw [hd] at e1
      rw [e1]
      exact ⟨_, none, rfl⟩
    obtain ⟨b, er, hr⟩ := hread
    simp only [hr]
    rw [OutT.run_bind_ret env _ (OutT.run_lift_ret env _ (b, d, er))]
    simp only [OutT.run_ret, List.append_nil]
    rw [storeInto_full _ _ (by rw [hd, zeros_length])]
    rfl

theorem receivedInto_512 (got : Bytes) : receivedInto (zeros 512) got = delivered (zeros 512) got := by
  unfold receivedInto delivered
  simp only [zeros_length, List.length_take, List.take_take]
  have h1 : min 512 (min (512 % 2 ^ 32) got.length) = min 512 got.length := by omega
  have h2 : min 512 (512 % 2 ^ 32) = 512 := by decide
  simp only [h2]

/-- C98: opening through the ATA driver sends IDENTIFY DEVICE (a 512 byte read of zeros, timeout 10 s) and accepts the
drive exactly if the first, direct, request succeeds and the status byte it leaves shows neither error nor data request;
the identity is then the data received over zeros. It never panics. After a failed direct request the drive is always
refused, because the fallback is judged by the opcode 0xEC, whose DRQ bit is set. -/
theorem win_ata_open (h base base' : Nat) (env : Prog.Env WReq WRep) (hist : Prog.Trace WReq WRep) :
    ∃ inb a r rest res, OutT.run env hist (winAtaOpen h base base') =
        (.ret res, (.ioctl h 0x4d030 inb 48 (some (a, zeros 512)), r) :: rest) ∧
      ataView inb =
        { length := 48, flags := 2, address := zeros 4, transferLength := 512, timeout := 10, reserved := zeros 8,
          dataBuffer := a % 2 ^ 64, previous := zeros 8, current := [0, 0, 0, 0, 0, 0, 0xec, 0] } ∧
      ∀ id, res = .ok id ↔ r.err = none ∧ 46 < r.out.length ∧ ¬ errOrDrq (r.out.getD 46 0) ∧
        id = delivered (zeros 512) r.mem := by
  obtain ⟨-, hal, -, -⟩ := newAligned_fits base 512
  have hne : zeros 512 ≠ ([] : Bytes) := by decide
  obtain ⟨inb, a, c, r, rest, ht, hv, -⟩ :=
    win_ata_records h false winIdentifyTf (zeros 512) (newAlignedBuffer base 512 512).pointer base' 10 hne env hist
  obtain ⟨e, d', hr1, hl, hcases⟩ := win_reads (.ataTask winIdentifyTf) h (zeros 512)
    (newAlignedBuffer base 512 512).pointer base' 10 hne env hist
  obtain ⟨e2, d2, hr2, hres⟩ := win_ata_result h false winIdentifyTf (zeros 512)
    (newAlignedBuffer base 512 512).pointer base' 10 hne env hist
  rw [show (PassOp.ataTask winIdentifyTf).prog h false (zeros 512) (newAlignedBuffer base 512 512).pointer base' 10 =
    winAtaTask h false winIdentifyTf (zeros 512) (newAlignedBuffer base 512 512).pointer base' 10 from rfl] at hr1 hcases
  rw [hr1] at hr2
  simp only [Out.ret.injEq, Prod.mk.injEq] at hr2
  obtain ⟨rfl, rfl⟩ := hr2
  obtain ⟨t, htt⟩ : ∃ t, t = (OutT.run env hist (winAtaTask h false winIdentifyTf (zeros 512)
    (newAlignedBuffer base 512 512).pointer base' 10)).2 := ⟨_, rfl⟩
  have hrun : OutT.run env hist (winAtaTask h false winIdentifyTf (zeros 512)
    (newAlignedBuffer base 512 512).pointer base' 10) = (.ret (e, d'), t) := by
    rw [htt, ← hr1]
  have hopen := winIdentify_run base (fun d a => winAtaTask h false winIdentifyTf d a base' 10) env hist t e d'
    (by rw [hl, zeros_length]) hrun
  rw [← htt] at ht hcases hres
  have hec : errOrDrq winIdentifyTf.command := by decide
  have hcz : c = zeros 512 := by
    rcases hcases with ⟨q, r', hq, -, hp, -⟩ | ⟨q, r', q2, r2, hq, -, hp, -⟩ <;>
    · rw [ht] at hq
      simp only [List.cons.injEq, Prod.mk.injEq] at hq
      rw [← hq.1.1, payload] at hp
      simp only [hal, if_true, Option.some.injEq] at hp
      exact hp
  refine ⟨inb, a, r, rest, identResult e d', ?_, ?_, ?_⟩
  · unfold winAtaOpen
    rw [hopen, ht, hcz]
  · rw [hv, zeros_length]; rfl
  · intro id
    rcases hres with ⟨inb', m, r', hq, he, hrep⟩ | ⟨q, r', q2, r2, hq, he, hrep⟩
    · rw [ht] at hq
      simp only [List.cons.injEq, Prod.mk.injEq] at hq
      obtain ⟨⟨-, rfl⟩, rfl⟩ := hq
      have hd : d' = delivered (zeros 512) r.mem := by
        rcases hcases with ⟨q, r', hq, -, -, hd⟩ | ⟨q, r', q2, r2, hq, he', -⟩
        · rw [ht] at hq
          simp only [List.cons.injEq, Prod.mk.injEq] at hq
          rw [hd, ← hq.1.2]
          simp only [hal, if_true, receivedInto_512]
        · rw [ht] at hq; simp at hq
      unfold ataReport at hrep
      by_cases hlen : 46 < r.out.length
      · rw [if_pos hlen] at hrep
        by_cases hx : errOrDrq (r.out.getD 46 0)
        · rw [if_pos hx] at hrep
          rw [hrep]
          simp only [identResult, reduceCtorEq, false_iff]
          exact fun hh => hh.2.2.1 hx
        · rw [if_neg hx] at hrep
          rw [hrep]
          simp only [identResult, Res.ok.injEq, he, hlen, hd, true_and]
          exact ⟨fun hh => ⟨hx, hh.symm⟩, fun hh => hh.2.symm⟩
      · rw [if_neg hlen, if_pos hec] at hrep
        rw [hrep]
        simp [identResult, hlen]
    · rw [ht] at hq
      simp only [List.cons.injEq, Prod.mk.injEq] at hq
      obtain ⟨⟨-, rfl⟩, -⟩ := hq
      have : e ≠ none := by
        rcases hrep with ⟨-, hrep⟩ | ⟨e2, -, hrep⟩
        · rw [hrep, ataReport, if_pos hec]; simp
        · rw [hrep]; simp
      cases e with
      | none => exact absurd rfl this
      | some e => simp [identResult, he]

/-- C98: opening through the SCSI driver sends IDENTIFY DEVICE in an ATA PASS-THROUGH CDB (timeout 3 s) and accepts the
drive exactly if a request succeeds and the record it leaves has sense key 0 — also if Windows reports no sense data at
all. The identity is what the successful request delivered, over what a failed first one left. -/
theorem win_scsi_open (h base base' : Nat) (env : Prog.Env WReq WRep) (hist : Prog.Trace WReq WRep) :
    ∃ inb a r rest res, OutT.run env hist (winScsiOpen h base base') =
        (.ret res, (.ioctl h 0x4d014 inb 96 (some (a, zeros 512)), r) :: rest) ∧
      inb.length = 96 ∧
      ((r.err = none ∧ rest = [] ∧ res = match scsiReport (delivered inb r.out) with
          | some e => .err e
          | none => .ok (delivered (zeros 512) r.mem)) ∨
       (r.err ≠ none ∧ ∃ inb2 n r2, rest = [(.ioctl h 0x4d004 inb2 n none, r2)] ∧
          ((∃ e, r2.err = some e ∧ res = .err e) ∨
           (r2.err = none ∧ res = match scsiReport ((delivered inb2 r2.out).take 96) with
             | some e => .err e
             | none => .ok (delivered (delivered (zeros 512) r.mem) (r2.out.drop 96)))))) := by
  obtain ⟨-, hal, -, -⟩ := newAligned_fits base 512
  have hne : zeros 512 ≠ ([] : Bytes) := by decide
  have hop : ∀ tf, PassOp.scsiTask winIdentifyTf ≠ .ataTask tf := by intro tf; simp
  obtain ⟨p, a, c, r, hpl, -, -, hreq⟩ := (win_requests (.scsiTask winIdentifyTf) h false (zeros 512)
    (newAlignedBuffer base 512 512).pointer base' 3 env hist).2 hne
  obtain ⟨e, d', hr1, hl, hcases⟩ := win_reads (.scsiTask winIdentifyTf) h (zeros 512)
    (newAlignedBuffer base 512 512).pointer base' 3 hne env hist
  obtain ⟨e2, d2, hr2, hres⟩ := win_scsi_result (.scsiTask winIdentifyTf) hop h false (zeros 512)
    (newAlignedBuffer base 512 512).pointer base' 3 hne env hist
  rw [hr1] at hr2
  simp only [Out.ret.injEq, Prod.mk.injEq] at hr2
  obtain ⟨rfl, rfl⟩ := hr2
  rw [show (PassOp.scsiTask winIdentifyTf).prog h false (zeros 512) (newAlignedBuffer base 512 512).pointer base' 3 =
    winScsiTask h false winIdentifyTf (zeros 512) (newAlignedBuffer base 512 512).pointer base' 3 from rfl]
    at hr1 hcases hres hreq
  obtain ⟨t, htt⟩ : ∃ t, t = (OutT.run env hist (winScsiTask h false winIdentifyTf (zeros 512)
    (newAlignedBuffer base 512 512).pointer base' 3)).2 := ⟨_, rfl⟩
  have hrun : OutT.run env hist (winScsiTask h false winIdentifyTf (zeros 512)
    (newAlignedBuffer base 512 512).pointer base' 3) = (.ret (e, d'), t) := by
    rw [htt, ← hr1]
  have hopen := winIdentify_run base (fun d a => winScsiTask h false winIdentifyTf d a base' 3) env hist t e d'
    (by rw [hl, zeros_length]) hrun
  rw [← htt] at hcases hres hreq
  simp only [hal, if_true, receivedInto_512] at hcases
  rcases hreq with ⟨he, ht⟩ | ⟨he, b, r2, -, ht⟩
  · rw [ht] at hcases hres
    rcases hcases with ⟨q, r', hq, -, hp, hd⟩ | ⟨q, r', q2, r2, hq, -⟩
    · simp only [List.cons.injEq, Prod.mk.injEq, and_true] at hq
      rw [← hq.1, payload] at hp
      simp only [Option.some.injEq] at hp
      refine ⟨p, a, r, [], identResult e d', by unfold winScsiOpen; rw [hopen, ht, hp]; rfl, hpl, .inl ⟨he, rfl, ?_⟩⟩
      rcases hres with ⟨inb', m, r'', hq', -, -, hrep⟩ | ⟨q, r', inb', n, r2, hq', -⟩
      · simp only [List.cons.injEq, Prod.mk.injEq, and_true, WReq.ioctl.injEq] at hq'
        obtain ⟨⟨-, -, rfl, -⟩, rfl⟩ := hq'
        rw [← hrep, hd, ← hq.2]
        cases e <;> rfl
      · simp at hq'
    · simp at hq
  · rw [ht] at hcases hres
    rcases hcases with ⟨q, r', hq, -⟩ | ⟨q, r', q2, r2', hq, -, hp, -, hd1, hd2⟩
    · simp at hq
    · simp only [List.cons.injEq, Prod.mk.injEq, and_true] at hq
      obtain ⟨⟨rfl, rfl⟩, rfl, rfl⟩ := hq
      rw [payload] at hp
      simp only [Option.some.injEq] at hp
      refine ⟨p, a, r, [(.ioctl h 0x4d004 b b.length none, r2)], identResult e d',
        by unfold winScsiOpen; rw [hopen, ht, hp]; rfl, hpl, .inr ⟨he, b, _, r2, rfl, ?_⟩⟩
      rcases hres with ⟨inb', m, r'', hq', -⟩ | ⟨q, r', inb', n, r2', hq', -, hrep⟩
      · simp at hq'
      · simp only [List.cons.injEq, Prod.mk.injEq, and_true, WReq.ioctl.injEq] at hq'
        obtain ⟨⟨-, -⟩, ⟨-, -, rfl, -⟩, rfl⟩ := hq'
        rcases hrep with ⟨he2, hrep⟩ | ⟨e2, he2, hrep⟩
        · refine .inr ⟨he2, ?_⟩
          rw [← hrep, hd1 he2]
          cases e <;> rfl
        · exact .inl ⟨e2, he2, by rw [hrep]; rfl⟩

/-! ### The theorems apply -/

/-- A Windows on which the direct request fails and the buffered one succeeds, delivering status 0x51 and two bytes. -/
def sampleWinFallback : Prog.Env WReq WRep := fun _ q => match q with
  | .ioctl _ code inb _ _ =>
    if code = 0x4d030 || code = 0x4d014 then { err := some (.errno 1) }
    else { out := (inb.take 46) ++ [0x51#8] ++ ((inb.drop 47).take (leVal (slice inb 24 8) - 47)) ++ [0xaa#8, 0xbb#8] }
  | _ => {}

/-- A Windows on which the direct request succeeds, leaves status 0x50 and delivers three bytes. -/
def sampleWinDirect : Prog.Env WReq WRep := fun _ q => match q with
  | .ioctl _ _ inb _ _ => { out := (inb.take 46) ++ [0x50#8] ++ inb.drop 47, mem := [1#8, 2#8, 3#8] }
  | _ => {}

-- C73: the caller's bytes never reach the device, and are lost
example : (OutT.run sampleWinFallback [] (winAtaTask 7 true { command := 0x35#8 } [1#8, 2#8, 3#8] 1000 0 3)).1 =
      .ret (some (.dparm 0x35#8 []), [0#8, 0#8, 0#8]) ∧
    ((OutT.run sampleWinFallback [] (winAtaTask 7 true { command := 0x35#8 } [1#8, 2#8, 3#8] 1000 0 3)).2.map
      fun x => payload x.1) = [some [0#8, 0#8, 0#8], some [0#8, 0#8, 0#8]] := by decide +kernel

-- reads: an unaligned buffer keeps what the fallback does not overwrite, and is sent to the kernel
example : (OutT.run sampleWinFallback [] (winAtaTask 7 false { command := 0x25#8 } [1#8, 2#8, 3#8] 1000 0 3)).1 =
      .ret (some (.dparm 0x25#8 []), [0xaa#8, 0xbb#8, 3#8]) ∧
    ((OutT.run sampleWinFallback [] (winAtaTask 7 false { command := 0x25#8 } [1#8, 2#8, 3#8] 1000 0 3)).2.map
      fun x => payload x.1) = [some [0#8, 0#8, 0#8], some [1#8, 2#8, 3#8]] := by decide +kernel

-- C74: the drive reported an error (status 0x51); READ SECTOR(S) EXT (0x24) is nevertheless a success
example : (OutT.run sampleWinFallback [] (winAtaTask 7 false { command := 0x24#8 } [1#8, 2#8, 3#8] 1000 0 3)).1 =
    .ret (none, [0xaa#8, 0xbb#8, 3#8]) := by decide +kernel

-- C74: a successful direct request is judged by the status Windows leaves
example : (OutT.run sampleWinDirect [] (winAtaTask 7 false { command := 0x25#8 } [9#8, 9#8, 9#8, 9#8] 1024 0 3)).1 =
    .ret (none, [1#8, 2#8, 3#8, 9#8]) := by decide +kernel

-- C96, C97: a security receive on which the direct request fails; both requests, and the CDB of both
example :
    ((OutT.run sampleWinFallback [] (winScsiSec 7 false 1#8 0x1234#16 [0#8, 0#8] 1000 0 3)).2.map fun x => match x.1 with
      | .ioctl h c inb n m => (h, c, n, m.isSome, (scsiView (inb.take 96)).cdb)
      | _ => (0, 0, 0, false, [])) =
    [(7, 0x4d014, 96, true, [0xa2#8, 1#8, 0x12#8, 0x34#8, 0#8, 0#8, 0#8, 0#8, 0#8, 2#8, 0#8, 0#8]),
     (7, 0x4d004, 98, false, [0xa2#8, 1#8, 0x12#8, 0x34#8, 0#8, 0#8, 0#8, 0#8, 0#8, 2#8, 0#8, 0#8])] := by decide +kernel

-- C96: the sense data of the fallback decide
example : ∃ s, (OutT.run (fun _ q => match q with
      | .ioctl _ 0x4d014 _ _ _ => { err := some (.errno 5) }
      | .ioctl _ _ inb _ _ => { out := inb.take 62 ++ [5#8] }
      | _ => {}) [] (winScsiSec 7 false 1#8 0x1234#16 [0#8, 0#8] 1000 0 3)).1 = .ret (some (.dparm 0#8 s), [0#8, 0#8]) :=
  ⟨[0#8, 0#8, 5#8] ++ zeros 15, by decide +kernel⟩

-- C96: an empty buffer
example : (OutT.run sampleWinDirect [] (winScsiSec 7 false 1#8 0x1234#16 [] 1000 0 3)).1 = .panic := by decide +kernel

-- C97: the CDB of a 48-bit taskfile
example : cdbOf (.scsiTask { command := 0x25#8, isLba48 := 1#8, dev := 0x40#8, lob := { nsect := 8#8 } }) false 4096 =
    [0x85#8, 0#8, 0#8, 0#8, 0#8, 0#8, 8#8, 0#8, 0#8, 0#8, 0#8, 0#8, 0#8, 0x40#8, 0x25#8, 0#8] := by decide

-- C98: accepted, refused after a failed direct request, accepted by the SCSI driver in both cases
example : (OutT.run sampleWinDirect [] (winAtaOpen 7 5 9)).1 = .ret (.ok ([1#8, 2#8, 3#8] ++ zeros 509)) := by
  decide +kernel
example : (OutT.run sampleWinFallback [] (winAtaOpen 7 5 9)).1 = .ret (.err (.dparm 0xec#8 [])) := by decide +kernel
example : (OutT.run sampleWinDirect [] (winScsiOpen 7 5 9)).1 = .ret (.ok ([1#8, 2#8, 3#8] ++ zeros 509)) := by
  decide +kernel
example : (OutT.run sampleWinFallback [] (winScsiOpen 7 5 9)).1 = .ret (.ok ([0xaa#8, 0xbb#8] ++ zeros 510)) := by
  decide +kernel

end Dparm
