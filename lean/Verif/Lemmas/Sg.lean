import Verif.Model.Sg
import Verif.Lemmas.Handle
import Verif.Props.Buffer
import Verif.Props.Identity
/-!
# Lemmas on the SG driver
-/
namespace Dparm
open Spec

theorem newAligned_fits (base n : Nat) :
    (newAlignedBuffer base 512 n).off + n ≤ (newAlignedBuffer base 512 n).mem.length ∧
    (newAlignedBuffer base 512 n).pointer % 512 = 0 ∧ (newAlignedBuffer base 512 n).limit = n ∧
    (newAlignedBuffer base 512 n).buf = zeros n := by
  obtain ⟨h1, h2, h3, h4, h5, h6, h7, h8, h9⟩ := alignedBuffer_aligned_inBounds base 512 n (by omega)
  refine ⟨?_, Nat.mod_eq_zero_of_dvd h1, h7, h9⟩
  unfold ABuf.pointer at h4
  rw [h6] at h4
  omega

/-- A full write into a fresh aligned buffer. -/
theorem newAligned_write (base : Nat) (d : Bytes) (hd : d ≠ []) :
    ∃ ab n e, ((newAlignedBuffer base 512 d.length).resetWrite).write d = .ret (ab, n, e) ∧ ab.buf = d ∧
      ab.pointer % 512 = 0 ∧ ab.off + d.length ≤ ab.mem.length ∧ ab.limit = d.length ∧ ab.rpos = 0 := by
  obtain ⟨hf, hp, hl, -⟩ := newAligned_fits base d.length
  have hpos : 0 < d.length := List.length_pos_iff.2 hd
  refine ⟨{ newAlignedBuffer base 512 d.length with
    mem := copyAt (newAlignedBuffer base 512 d.length).mem (newAlignedBuffer base 512 d.length).off d,
    wpos := d.length }, d.length, none, ?_, ?_, hp, ?_, hl, rfl⟩
  · unfold ABuf.write ABuf.resetWrite
    have e1 : (newAlignedBuffer base 512 d.length).limit = d.length := hl
    simp only [e1, Nat.sub_zero, Nat.min_self, Nat.not_lt_zero, if_false, Nat.add_zero, List.take_length,
      Nat.zero_add, gt_iff_lt]
    rw [if_neg (by omega)]
  · show slice (copyAt _ _ d) (newAlignedBuffer base 512 d.length).off (newAlignedBuffer base 512 d.length).limit = d
    rw [hl]
    exact slice_copyAt_same _ _ _ hf
  · show (newAlignedBuffer base 512 d.length).off + d.length ≤ (copyAt _ _ d).length
    rw [copyAt_length _ _ _ hf]
    exact hf

/-- The memory of the first ioctl. -/
theorem sgFirstMem_spec (rw : Bool) (d : Bytes) (addr base : Nat) (hd : d ≠ []) :
    ∃ a c ab, sgFirstMem rw d addr base = .ret (.mem a c, ab) ∧ a % 512 = 0 ∧ c.length = d.length ∧
      (rw = true → c = d) ∧ (addr % 512 = 0 → a = addr ∧ c = d ∧ ab = none) ∧
      (addr % 512 ≠ 0 → (rw = false → c = zeros d.length) ∧
        ∃ b, ab = some b ∧ b.buf = c ∧ b.off + d.length ≤ b.mem.length ∧ b.limit = d.length ∧ b.rpos = 0) := by
  unfold sgFirstMem
  rw [if_neg hd]
  by_cases ha : addr % 512 = 0
  · have : isAlignedPointer 512 addr = true := by simp [isAlignedPointer, ha]
    rw [if_pos this]
    exact ⟨addr, d, none, rfl, ha, rfl, fun _ => rfl, fun _ => ⟨rfl, rfl, rfl⟩, fun h => absurd ha h⟩
  · have : ¬ isAlignedPointer 512 addr = true := by simp [isAlignedPointer, ha]
    rw [if_neg this]
    cases rw with
    | true =>
      obtain ⟨ab, n, e, h1, h2, h3, h4, h5, h6⟩ := newAligned_write base d hd
      simp only [if_true, h1]
      exact ⟨ab.pointer, ab.buf, some ab, rfl, h3, by rw [h2], fun _ => h2, fun h => absurd h ha,
        fun _ => ⟨fun h => by simp at h, ab, rfl, rfl, h4, h5, h6⟩⟩
    | false =>
      obtain ⟨hf, hp, hl, hb⟩ := newAligned_fits base d.length
      simp only [Bool.false_eq_true, if_false]
      refine ⟨_, _, _, rfl, hp, by rw [hb]; simp, fun h => by simp at h, fun h => absurd h ha, fun _ => ⟨fun _ => hb, ?_⟩⟩
      exact ⟨_, rfl, rfl, hf, hl, rfl⟩

theorem kernelStore_length (q : SgReq) (m : Bytes) (r : SgRep) : (q.kernelStore m r).length = m.length := by
  unfold SgReq.kernelStore
  split
  · exact storeInto_length _ _
  · rfl

/-- The caller's buffer after the first ioctl. -/
theorem sgAfterFirst_spec (rw : Bool) (d : Bytes) (addr base : Nat) (hd : d ≠ []) (q : SgReq) (r : SgRep) (x : Dxfer)
    (ab : Option ABuf) (hm : sgFirstMem rw d addr base = .ret (x, ab)) :
    ∃ d', sgAfterFirst rw d ab q r = .ret d' ∧ d'.length = d.length ∧
      (addr % 512 = 0 → d' = q.kernelStore d r) ∧
      (addr % 512 ≠ 0 → (rw = true ∨ r.err ≠ none → d' = d) ∧
        (rw = false → r.err = none → d' = q.kernelStore (zeros d.length) r)) := by
  obtain ⟨a, c, ab', h1, h2, h3, h4, h5, h6⟩ := sgFirstMem_spec rw d addr base hd
  rw [hm] at h1
  simp only [P.ret.injEq, Prod.mk.injEq] at h1
  obtain ⟨-, rfl⟩ := h1
  by_cases ha : addr % 512 = 0
  · obtain ⟨-, -, rfl⟩ := h5 ha
    exact ⟨_, rfl, kernelStore_length _ _ _, fun _ => rfl, fun h => absurd ha h⟩
  · obtain ⟨hz, b, rfl, hb, hf, hl, hr⟩ := h6 ha
    unfold sgAfterFirst
    by_cases hc : r.err = none ∧ rw = false
    · obtain ⟨he, hw⟩ := hc
      subst hw
      simp only [he, decide_true, Bool.not_false, Bool.and_self, if_true]
      have hpos : 0 < d.length := List.length_pos_iff.2 hd
      have hkl : (q.kernelStore b.buf r).length = d.length := by rw [kernelStore_length, hb, h3]
      have hrd : ((b.kernel q r).resetRead).read d.length =
          .ret ({ (b.kernel q r).resetRead with rpos := 0 + d.length }, q.kernelStore b.buf r, none) := by
        unfold ABuf.read ABuf.resetRead ABuf.kernel
        simp only [hl, Nat.sub_zero, Nat.min_self, Nat.not_lt_zero, if_false, Nat.add_zero, gt_iff_lt]
        rw [if_neg (by omega)]
        congr 2
        rw [← hkl, slice_copyAt_same _ _ _ (by rw [hkl]; exact hf)]
      rw [hrd]
      refine ⟨_, rfl, ?_, fun h => absurd h ha, fun _ => ⟨fun h => by simp [he] at h, fun _ _ => ?_⟩⟩
      · exact storeInto_length _ _
      · rw [storeInto_full _ _ hkl, hb, hz rfl]
    · have : (decide (r.err = none) && !rw) = false := by
        cases rw
        · simp only [and_true] at hc; simp [hc]
        · simp
      rw [this]
      simp only [Bool.false_eq_true, if_false]
      refine ⟨_, rfl, rfl, fun h => absurd h ha, fun _ => ⟨fun _ => rfl, fun h1 h2 => absurd ⟨h2, h1⟩ hc⟩⟩

end Dparm
