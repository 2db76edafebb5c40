import Verif.Model.Buffer
import Verif.Spec.Cursor
import Verif.Lemmas.Lists
/-!
# Properties of the byte buffers (C51, C52)
-/
namespace Dparm
open Spec

/-- C51: for every address chosen by the allocator, every alignment ≥ 1 and every size, the data
pointer is a multiple of the alignment, lies at most `align - 1` after the allocation's start, and the
`size` data bytes lie inside the allocation of `align + size` bytes. -/
theorem alignedBuffer_aligned_inBounds (base align size : Nat) (ha : 0 < align) :
    let b := newAlignedBuffer base align size
    align ∣ b.pointer ∧ b.base ≤ b.pointer ∧ b.pointer < b.base + align ∧
    b.pointer + b.cap ≤ b.base + b.mem.length ∧ b.base = base ∧ b.cap = size ∧
    b.limit = size ∧ b.mem.length = align + size ∧ b.buf = List.replicate size 0 := by
  have hm := Nat.mod_lt base ha
  have hd := Nat.div_add_mod base align
  simp only [newAlignedBuffer, ABuf.pointer, List.length_replicate, ABuf.buf]
  refine ⟨?_, by omega, by split <;> omega, by split <;> omega, by trivial, by trivial, by trivial, by trivial, ?_⟩
  · split
    · refine ⟨base / align + 1, ?_⟩
      rw [Nat.mul_add]; omega
    · exact ⟨base / align, by omega⟩
  · unfold slice
    rw [List.drop_replicate, List.take_replicate]
    congr 1
    split <;> omega

/-- The library's own test agrees: `IsAlignedPointer` holds of the pointer of a fresh buffer. -/
theorem isAlignedPointer_newAlignedBuffer (base align size : Nat) (ha : 0 < align) :
    isAlignedPointer align (newAlignedBuffer base align size).pointer = true := by
  have h := (alignedBuffer_aligned_inBounds base align size ha).1
  simp only [isAlignedPointer, beq_iff_eq]
  exact Nat.mod_eq_zero_of_dvd h

example : (newAlignedBuffer 5000 512 100).pointer = 5120 := by decide

/-- One operation of the concrete buffer, with its observable output. -/
def ABuf.step (b : ABuf) : BufOp → ABuf × BufOut
  | .write p => match b.write p with
    | .panic => (b, .panic)
    | .ret (b', n, none) => (b', .wrote n)
    | .ret (b', _, some _) => (b', .eof)
  | .writeByte x => match b.writeByte x with
    | (b', none) => (b', .wrote 1)
    | (b', some _) => (b', .eof)
  | .read n => match b.read n with
    | .panic => (b, .panic)
    | .ret (b', d, none) => (b', .got d)
    | .ret (b', _, some _) => (b', .eof)
  | .reset => (b.reset, .unit)
  | .resetRead => (b.resetRead, .unit)
  | .resetWrite => (b.resetWrite, .unit)
  | .setWritePos n => (b.setWritePos n, .unit)
  | .setReadPos n => (b.setReadPos n, .unit)
  | .setLimit n => (b.setLimit n, .unit)

/-- Outputs of a history of concrete operations. -/
def ABuf.runOps (b : ABuf) : List BufOp → ABuf × List BufOut
  | [] => (b, [])
  | o :: os =>
    let (b', out) := b.step o
    let (b'', outs) := b'.runOps os
    (b'', out :: outs)

/-- The window fits the allocation (true of every fresh buffer, see C51). -/
def ABuf.Fits (b : ABuf) : Prop := b.off + b.limit ≤ b.mem.length

/-- The abstract view: byte `i` of the store is byte `off + i` of the allocation. -/
def ABuf.abs (b : ABuf) : Cursor :=
  { store := fun i => b.mem.getD (b.off + i) 0, limit := b.limit, w := b.wpos, r := b.rpos }

@[simp] theorem ABuf.abs_limit (b : ABuf) : b.abs.limit = b.limit := rfl
@[simp] theorem ABuf.abs_w (b : ABuf) : b.abs.w = b.wpos := rfl
@[simp] theorem ABuf.abs_r (b : ABuf) : b.abs.r = b.rpos := rfl

/-- Limits asked for by a history stay within `m` bytes. -/
def limitsWithin (m : Nat) : List BufOp → Prop
  | [] => True
  | .setLimit n :: os => n ≤ m ∧ limitsWithin m os
  | _ :: os => limitsWithin m os

theorem getD_copyAt (m : Bytes) (i : Nat) (p : Bytes) (j : Nat) (h : i + p.length ≤ m.length) :
    (copyAt m i p).getD j 0 = if i ≤ j ∧ j < i + p.length then p.getD (j - i) 0 else m.getD j 0 := by
  simp only [List.getD_eq_getElem?_getD, getElem?_copyAt _ _ _ _ h]
  split <;> rfl

theorem slice_eq_map_range (m : Bytes) (i n : Nat) (h : i + n ≤ m.length) :
    slice m i n = (List.range n).map (fun k => m.getD (i + k) 0) := by
  apply List.ext_getElem?
  intro j
  rw [getElem?_slice]
  by_cases hj : j < n
  · have : i + j < m.length := by omega
    simp [hj, List.getElem?_eq_getElem this]
  · simp [hj]

theorem putCopy (b : ABuf) (p : Bytes) (k : Nat) (hk : k ≤ p.length)
    (hf : b.off + b.wpos + k ≤ b.mem.length) :
    (fun i => (copyAt b.mem (b.off + b.wpos) (p.take k)).getD (b.off + i) 0)
      = Cursor.put (fun i => b.mem.getD (b.off + i) 0) b.wpos p k := by
  funext i
  have hl : (p.take k).length = k := by simp; omega
  rw [getD_copyAt _ _ _ _ (by omega), hl]
  unfold Cursor.put
  by_cases hi : b.wpos ≤ i ∧ i < b.wpos + k
  · rw [if_pos (by omega), if_pos hi]
    simp only [List.getD_eq_getElem?_getD]
    rw [show b.off + i - (b.off + b.wpos) = i - b.wpos by omega,
      List.getElem?_take_of_lt (by omega)]
  · rw [if_neg (by omega), if_neg hi]

/-- One concrete step simulates one abstract step, keeps the window inside the allocation, keeps
the allocation's size and address, and touches no byte outside the window. -/
theorem ABuf.step_refines (b : ABuf) (o : BufOp) (hf : b.Fits)
    (hl : ∀ n, o = .setLimit n → b.off + n ≤ b.mem.length) :
    (b.step o).1.abs = (b.abs.step o).1 ∧ (b.step o).2 = (b.abs.step o).2 ∧
    (b.step o).1.Fits ∧ (b.step o).1.mem.length = b.mem.length ∧
    (b.step o).1.off = b.off ∧ (b.step o).1.base = b.base ∧
    (∀ j, (j < b.off ∨ b.off + b.limit ≤ j) → (b.step o).1.mem[j]? = b.mem[j]?) := by
  unfold ABuf.Fits at hf
  cases o with
  | write p =>
    simp only [ABuf.step, ABuf.write, Cursor.step]
    by_cases h1 : b.wpos > b.limit
    · simp [h1, ABuf.abs, ABuf.Fits, hf]
    · simp only [h1, if_false]
      by_cases h2 : min (b.limit - b.wpos) p.length = 0
      · have h3 : p = [] ∨ b.wpos = b.limit := by
          rcases Nat.min_eq_zero_iff.1 h2 with h | h
          · right; omega
          · left; exact List.length_eq_zero_iff.1 h
        simp only [h2, if_true]
        have h4 : ¬ b.abs.limit < b.abs.w := by simpa [ABuf.abs] using h1
        simp only [h4, if_false]
        rw [if_pos (by simpa [ABuf.abs] using h3)]
        simp [ABuf.Fits, hf]
      · have h3 : ¬ (p = [] ∨ b.wpos = b.limit) := by
          rintro (h | h)
          · subst h; simp at h2
          · exact h2 (by rw [Nat.min_eq_zero_iff]; left; omega)
        simp only [h2, if_false]
        have h4 : ¬ b.abs.limit < b.abs.w := by simpa [ABuf.abs] using h1
        simp only [h4, if_false]
        rw [if_neg (by simpa [ABuf.abs] using h3)]
        have hk : min (b.limit - b.wpos) p.length ≤ p.length := Nat.min_le_right _ _
        have hk2 : min (b.limit - b.wpos) p.length ≤ b.limit - b.wpos := Nat.min_le_left _ _
        have hlen : (p.take (min (b.limit - b.wpos) p.length)).length
            = min (b.limit - b.wpos) p.length := by rw [List.length_take]; omega
        have hcl := copyAt_length b.mem (b.off + b.wpos)
          (p.take (min (b.limit - b.wpos) p.length)) (by rw [hlen]; omega)
        refine ⟨?_, ?_, ?_, ?_, by trivial, by trivial, ?_⟩
        · simp only [ABuf.abs, Nat.min_comm p.length]
          rw [putCopy b p _ hk (by omega)]
        · simp [ABuf.abs, Nat.min_comm]
        · simp only [ABuf.Fits]; omega
        · exact hcl
        · intro j hj
          rw [getElem?_copyAt _ _ _ _ (by rw [hlen]; omega), if_neg (by rw [hlen]; omega)]
  | writeByte x =>
    simp only [ABuf.step, ABuf.writeByte, Cursor.step]
    by_cases h1 : b.wpos ≥ b.limit
    · have h2 : b.abs.limit ≤ b.abs.w := h1
      simp [h1, ABuf.Fits, hf]
    · have h2 : ¬ b.abs.limit ≤ b.abs.w := h1
      simp only [h1, h2, if_false]
      have hcl := copyAt_length b.mem (b.off + b.wpos) [x] (by simp; omega)
      refine ⟨?_, by trivial, ?_, hcl, by trivial, by trivial, ?_⟩
      · simp only [ABuf.abs]
        have := putCopy b [x] 1 (by simp) (by omega)
        simp only [List.take_succ_cons, List.take_nil] at this
        rw [this]
      · simp only [ABuf.Fits]; omega
      · intro j hj
        rw [getElem?_copyAt _ _ _ _ (by simp; omega), if_neg (by simp; omega)]
  | read n =>
    simp only [ABuf.step, ABuf.read, Cursor.step]
    by_cases h1 : b.rpos > b.limit
    · have h4 : b.abs.limit < b.abs.r := h1
      simp [h1, ABuf.Fits, hf]
    · have h4 : ¬ b.abs.limit < b.abs.r := h1
      simp only [h1, h4, if_false]
      by_cases h2 : min (b.limit - b.rpos) n = 0
      · have h3 : n = 0 ∨ b.abs.r = b.abs.limit := by
          rcases Nat.min_eq_zero_iff.1 h2 with h | h
          · right; simp only [ABuf.abs]; omega
          · left; exact h
        simp only [h2, if_true]
        rw [if_pos h3]
        simp [ABuf.Fits, hf]
      · have h3 : ¬ (n = 0 ∨ b.abs.r = b.abs.limit) := by
          rintro (h | h)
          · subst h; simp at h2
          · simp only [ABuf.abs] at h
            exact h2 (by rw [Nat.min_eq_zero_iff]; left; omega)
        simp only [h2, if_false]
        rw [if_neg h3]
        have hk2 : min (b.limit - b.rpos) n ≤ b.limit - b.rpos := Nat.min_le_left _ _
        refine ⟨?_, ?_, hf, by trivial, by trivial, by trivial, by simp⟩
        · simp [ABuf.abs, Nat.min_comm]
        · simp only [ABuf.abs]
          rw [slice_eq_map_range _ _ _ (by omega), Nat.min_comm n]
          simp [Nat.add_assoc]
  | reset =>
    simp only [ABuf.step, ABuf.reset, Cursor.step, ABuf.abs_limit]
    have hcl := copyAt_length b.mem b.off (List.replicate b.limit 0) (by simpa using hf)
    refine ⟨?_, by trivial, ?_, hcl, by trivial, by trivial, ?_⟩
    · simp only [ABuf.abs]
      congr 1
      funext i
      rw [getD_copyAt _ _ _ _ (by simpa using hf)]
      simp only [List.length_replicate]
      by_cases hi : i < b.limit
      · rw [if_pos (by omega)]
        simp [List.getD_eq_getElem?_getD, show b.off + i - b.off = i by omega, hi]
      · rw [if_neg (by omega)]
        simp [hi]
    · simp only [ABuf.Fits]; omega
    · intro j hj
      rw [getElem?_copyAt _ _ _ _ (by simpa using hf), if_neg (by simp; omega)]
  | resetRead => exact ⟨rfl, rfl, hf, rfl, rfl, rfl, fun _ _ => rfl⟩
  | resetWrite => exact ⟨rfl, rfl, hf, rfl, rfl, rfl, fun _ _ => rfl⟩
  | setWritePos n => exact ⟨rfl, rfl, hf, rfl, rfl, rfl, fun _ _ => rfl⟩
  | setReadPos n => exact ⟨rfl, rfl, hf, rfl, rfl, rfl, fun _ _ => rfl⟩
  | setLimit n => exact ⟨rfl, rfl, hl n rfl, rfl, rfl, rfl, fun _ _ => rfl⟩

theorem Spec.Cursor.step_limit (c : Cursor) (o : BufOp) (m : Nat) (hc : c.limit ≤ m)
    (hl : ∀ n, o = .setLimit n → n ≤ m) : (c.step o).1.limit ≤ m := by
  cases o with
  | setLimit n => exact hl n rfl
  | write p => simp only [Cursor.step]; split <;> (try split) <;> exact hc
  | read p => simp only [Cursor.step]; split <;> (try split) <;> exact hc
  | writeByte p => simp only [Cursor.step]; split <;> exact hc
  | _ => exact hc

/-- C52: every history of operations on an aligned buffer (limits staying inside the allocation)
returns the same outputs as on the abstract array with two cursors, ends in the matching state, and
changes no byte outside the largest window used (bytes before the pointer, bytes from
`off + m` on, where `m` bounds every limit of the history). -/
theorem alignedBuffer_refines_cursor (b : ABuf) (ops : List BufOp) (m : Nat)
    (hm : b.off + m ≤ b.mem.length) (hb : b.limit ≤ m) (hops : limitsWithin m ops) :
    (b.runOps ops).2 = (b.abs.run ops).2 ∧ (b.runOps ops).1.abs = (b.abs.run ops).1 ∧
    (b.runOps ops).1.mem.length = b.mem.length ∧
    (∀ j, (j < b.off ∨ b.off + m ≤ j) → (b.runOps ops).1.mem[j]? = b.mem[j]?) := by
  induction ops generalizing b with
  | nil => simp [ABuf.runOps, Cursor.run]
  | cons o os ih =>
    have hl : ∀ n, o = .setLimit n → n ≤ m := by
      intro n hn; subst hn; exact hops.1
    have hos : limitsWithin m os := by
      cases o <;> simp only [limitsWithin] at hops <;> first | exact hops | exact hops.2
    have hs := b.step_refines o (by unfold ABuf.Fits; omega)
      (fun n hn => by have := hl n hn; omega)
    have hlim : (b.step o).1.limit ≤ m := by
      have h1 : (b.step o).1.abs.limit = (b.abs.step o).1.limit := by rw [hs.1]
      show (b.step o).1.abs.limit ≤ m
      rw [h1]
      exact Cursor.step_limit b.abs o m hb hl
    obtain ⟨h1, h2, h3, h4, h5, h6, h7⟩ := hs
    have := ih (b.step o).1 (by rw [h5, h4]; exact hm) hlim hos
    obtain ⟨i1, i2, i3, i4⟩ := this
    simp only [ABuf.runOps, Cursor.run]
    rw [← h1, h2.symm]
    refine ⟨by rw [i1], i2, by rw [i3, h4], ?_⟩
    intro j hj
    rw [i4 j (by rw [h5]; exact hj), h7 j (by omega)]

/-- non-vacuity of C52: a fresh buffer meets the hypotheses with `m = size`, for a non-trivial history -/
example : let b := newAlignedBuffer 50 16 8
    b.off + 8 ≤ b.mem.length ∧ b.limit ≤ 8 ∧
    limitsWithin 8 [.write [1, 2, 3], .setLimit 4, .writeByte 9, .resetRead, .read 10] ∧
    (b.runOps [.write [1, 2, 3], .setLimit 4, .writeByte 9, .writeByte 1, .resetRead, .read 10]).2
      = [.wrote 3, .unit, .wrote 1, .eof, .unit, .got [1, 2, 3, 9]] := by
  refine ⟨by decide, by decide, by simp [limitsWithin], by decide⟩


/-- Reads return what was written: after writing `p` at the start of a buffer with room for it, a read
of `p.length` bytes from the start returns `p`. -/
theorem alignedBuffer_read_after_write (b : ABuf) (p : Bytes) (hf : b.Fits) (hp : p ≠ [])
    (hl : p.length ≤ b.limit) :
    (b.runOps [.resetWrite, .write p, .resetRead, .read p.length]).2
      = [.unit, .wrote p.length, .unit, .got p] := by
  have hlen : 0 < p.length := List.length_pos_iff.2 hp
  have h := (alignedBuffer_refines_cursor b [.resetWrite, .write p, .resetRead, .read p.length] b.limit
    hf (Nat.le_refl _) (by simp [limitsWithin])).1
  rw [h]
  have hmin : min p.length b.limit = p.length := Nat.min_eq_left hl
  have h0 : ¬ (0 = b.limit) := by omega
  simp only [Cursor.run, Cursor.step, ABuf.abs_limit, Nat.not_lt_zero, if_false, hp, h0, or_self,
    Nat.sub_zero, hmin, Nat.zero_add, List.length_eq_zero_iff]
  simp only [List.cons.injEq, and_true, true_and, BufOut.got.injEq]
  apply List.ext_getElem?
  intro j
  by_cases hj : j < p.length
  · simp [Cursor.put, hj]
  · simp [hj]

example : (newAlignedBuffer 50 16 8).Fits := by unfold ABuf.Fits; decide

/-- The wrapped buffer seen as an aligned buffer at offset 0. -/
def WBuf.toABuf (b : WBuf) : ABuf :=
  { base := 0, mem := b.mem, off := 0, cap := b.mem.length, limit := b.limit,
    wpos := b.wpos, rpos := b.rpos }

/-- One operation of the wrapped buffer, with its observable output. It has no `WriteByte`, `Reset`,
`SetWritePos`, `SetReadPos`; those leave it unchanged here and are excluded by `WBuf.HasOp`. -/
def WBuf.step (b : WBuf) : BufOp → WBuf × BufOut
  | .write p => match b.write p with
    | .panic => (b, .panic)
    | .ret (b', n, none) => (b', .wrote n)
    | .ret (b', _, some _) => (b', .eof)
  | .read n => match b.read n with
    | .panic => (b, .panic)
    | .ret (b', d, none) => (b', .got d)
    | .ret (b', _, some _) => (b', .eof)
  | .resetRead => (b.resetRead, .unit)
  | .resetWrite => (b.resetWrite, .unit)
  | .setLimit n => match b.setLimit n with
    | .panic => (b, .panic)
    | .ret b' => (b', .unit)
  | _ => (b, .unit)

/-- The operations a wrapped buffer offers, with limits inside the slice's capacity. -/
def WBuf.HasOp (b : WBuf) : BufOp → Prop
  | .write _ | .read _ | .resetRead | .resetWrite => True
  | .setLimit n => n ≤ b.mem.length
  | _ => False

/-- Outputs of a history. -/
def WBuf.runOps (b : WBuf) : List BufOp → WBuf × List BufOut
  | [] => (b, [])
  | o :: os =>
    let (b', out) := b.step o
    let (b'', outs) := b'.runOps os
    (b'', out :: outs)

theorem WBuf.step_toABuf (b : WBuf) (o : BufOp) (ho : b.HasOp o) :
    (b.step o).1.toABuf = { (b.toABuf.step o).1 with cap := (b.step o).1.mem.length } ∧
    (b.step o).2 = (b.toABuf.step o).2 := by
  cases o with
  | write p =>
    simp only [WBuf.step, ABuf.step, WBuf.write, ABuf.write, WBuf.toABuf, Nat.zero_add]
    by_cases h1 : b.wpos > b.limit
    · simp [h1]
    · simp only [h1, if_false]
      by_cases h2 : min (b.limit - b.wpos) p.length = 0
      · simp [h2]
      · simp [h2]
  | read n =>
    simp only [WBuf.step, ABuf.step, WBuf.read, ABuf.read, WBuf.toABuf, Nat.zero_add]
    by_cases h1 : b.rpos > b.limit
    · simp [h1]
    · simp only [h1, if_false]
      by_cases h2 : min (b.limit - b.rpos) n = 0
      · simp [h2]
      · simp [h2]
  | resetRead => exact ⟨rfl, rfl⟩
  | resetWrite => exact ⟨rfl, rfl⟩
  | setLimit n =>
    have h : ¬ n > b.mem.length := Nat.not_lt.2 ho
    simp [WBuf.step, WBuf.setLimit, h, ABuf.step, ABuf.setLimit, WBuf.toABuf]
  | _ => exact ho.elim

/-- C52 for wrapped buffers: every history of their operations (limits inside the slice's capacity) gives the
outputs and final content of the abstract array with two cursors. -/
theorem wrappedBuffer_refines_cursor (b : WBuf) (ops : List BufOp) (hb : b.limit ≤ b.mem.length)
    (hops : ∀ o ∈ ops, b.HasOp o) :
    (b.runOps ops).2 = (b.toABuf.abs.run ops).2 ∧
    (b.runOps ops).1.toABuf.abs = (b.toABuf.abs.run ops).1 ∧
    (b.runOps ops).1.mem.length = b.mem.length := by
  induction ops generalizing b with
  | nil => simp [WBuf.runOps, Cursor.run]
  | cons o os ih =>
    have ho := hops o (List.mem_cons_self ..)
    have hs := b.step_toABuf o ho
    have hr := b.toABuf.step_refines o (by simpa [ABuf.Fits, WBuf.toABuf] using hb)
      (by intro n hn; subst hn; have := (show n ≤ b.mem.length from ho); simpa [WBuf.toABuf] using this)
    obtain ⟨h1, h2, h3, h4, h5, -, -⟩ := hr
    have hmem : (b.step o).1.mem.length = b.mem.length := by
      have : (b.step o).1.toABuf.mem = (b.toABuf.step o).1.mem := by rw [hs.1]
      show (b.step o).1.toABuf.mem.length = _
      rw [this, h4]; rfl
    have habs : (b.step o).1.toABuf.abs = (b.toABuf.step o).1.abs := by
      rw [hs.1]; rfl
    have hlim : (b.step o).1.limit ≤ (b.step o).1.mem.length := by
      have hm : (b.step o).1.toABuf.mem = (b.toABuf.step o).1.mem := by rw [hs.1]
      have hl : (b.step o).1.toABuf.limit = (b.toABuf.step o).1.limit := by rw [hs.1]
      have ho' : (b.toABuf.step o).1.off = 0 := h5
      unfold ABuf.Fits at h3
      show (b.step o).1.toABuf.limit ≤ (b.step o).1.toABuf.mem.length
      rw [hm, hl]; omega
    have hos : ∀ o' ∈ os, (b.step o).1.HasOp o' := by
      intro o' ho'
      have := hops o' (List.mem_cons_of_mem _ ho')
      cases o' <;> simp only [WBuf.HasOp, hmem] at this ⊢ <;> exact this
    obtain ⟨i1, i2, i3⟩ := ih (b.step o).1 hlim hos
    simp only [WBuf.runOps, Cursor.run]
    rw [← h1, ← habs, hs.2, h2]
    exact ⟨by rw [i1], i2, by rw [i3, hmem]⟩

theorem copyAt_prefix (x y p : Bytes) (i : Nat) (h : i + p.length ≤ x.length) : copyAt (x ++ y) i p = copyAt x i p ++ y := by
  unfold copyAt
  rw [List.take_append_of_le_length (by omega), List.drop_append_of_le_length h]
  simp only [List.append_assoc]
theorem slice_prefix (x y : Bytes) (i n : Nat) (h : i + n ≤ x.length) : slice (x ++ y) i n = slice x i n := by
  unfold slice
  rw [List.drop_append_of_le_length (by omega), List.take_append_of_le_length (by rw [List.length_drop]; omega)]

/-- C52 for wrapped buffers, from `NewWrappedBuffer` on: as long as the limit is not raised above the length of the slice, no operation
touches or looks at what lies behind it. -/
theorem wrappedBuffer_confined (m behind behind' : Bytes) (ops : List BufOp) (hops : ∀ o ∈ ops, (newWrappedBuffer m []).HasOp o) :
    ((newWrappedBuffer m behind).runOps ops).2 = ((newWrappedBuffer m behind').runOps ops).2 ∧
    ((newWrappedBuffer m behind).runOps ops).1.mem.drop m.length = behind := by
  have gen : ∀ (ops : List BufOp) (x : Bytes) (l w r : Nat), x.length = m.length → l ≤ m.length →
      (∀ o ∈ ops, (newWrappedBuffer m []).HasOp o) →
      (WBuf.runOps ⟨x ++ behind, l, w, r⟩ ops).2 = (WBuf.runOps ⟨x ++ behind', l, w, r⟩ ops).2 ∧
      (WBuf.runOps ⟨x ++ behind, l, w, r⟩ ops).1.mem.drop m.length = behind := by
    intro ops
    induction ops with
    | nil => intro x l w r hx _ _; exact ⟨rfl, by simp [WBuf.runOps, ← hx]⟩
    | cons o os ih =>
      intro x l w r hx hl ho
      have ho1 := ho o List.mem_cons_self
      have ho2 : ∀ o ∈ os, (newWrappedBuffer m []).HasOp o := fun x hx => ho x (List.mem_cons_of_mem _ hx)
      have key : ∃ x' l' w' r' out, x'.length = m.length ∧ l' ≤ m.length ∧
          ∀ y, WBuf.step ⟨x ++ y, l, w, r⟩ o = (⟨x' ++ y, l', w', r'⟩, out) := by
        cases o with
        | write p =>
          by_cases h1 : w > l
          · exact ⟨x, l, w, r, .panic, hx, hl, fun y => (by simp [WBuf.step, WBuf.write, h1])⟩
          · by_cases h2 : min (l - w) p.length = 0
            · exact ⟨x, l, w, r, .eof, hx, hl, fun y => (by simp [WBuf.step, WBuf.write, h1, h2])⟩
            · have hlen : w + (p.take (min (l - w) p.length)).length ≤ x.length := by rw [List.length_take]; omega
              refine ⟨copyAt x w (p.take (min (l - w) p.length)), l, w + min (l - w) p.length, r, .wrote (min (l - w) p.length),
                by rw [copyAt_length _ _ _ hlen, hx], hl, fun y => ?_⟩
              simp only [WBuf.step, WBuf.write, h1, h2, if_false]
              rw [copyAt_prefix _ _ _ _ hlen]
        | read n =>
          by_cases h1 : r > l
          · exact ⟨x, l, w, r, .panic, hx, hl, fun y => (by simp [WBuf.step, WBuf.read, h1])⟩
          · by_cases h2 : min (l - r) n = 0
            · exact ⟨x, l, w, r, .eof, hx, hl, fun y => (by simp [WBuf.step, WBuf.read, h1, h2])⟩
            · refine ⟨x, l, w, r + min (l - r) n, .got (slice x r (min (l - r) n)), hx, hl, fun y => ?_⟩
              simp only [WBuf.step, WBuf.read, h1, h2, if_false]
              rw [slice_prefix _ _ _ _ (by omega)]
        | resetRead => exact ⟨x, l, w, 0, .unit, hx, hl, fun y => rfl⟩
        | resetWrite => exact ⟨x, l, 0, r, .unit, hx, hl, fun y => rfl⟩
        | setLimit n =>
          have hn : n ≤ m.length := by simpa [WBuf.HasOp, newWrappedBuffer] using ho1
          refine ⟨x, n, w, r, .unit, hx, hn, fun y => ?_⟩
          simp only [WBuf.step, WBuf.setLimit]
          rw [if_neg (by rw [List.length_append]; omega)]
        | _ => exact ho1.elim
      obtain ⟨x', l', w', r', out, k1, k2, k3⟩ := key
      simp only [WBuf.runOps]
      obtain ⟨i1, i2⟩ := ih x' l' w' r' k1 k2 ho2
      have e1 := k3 behind
      have e2 := k3 behind'
      rw [e1, e2]
      exact ⟨by simp only [i1], i2⟩
  exact gen ops m m.length 0 0 rfl (Nat.le_refl _) hops

example : let b := newWrappedBuffer [1, 2, 3] [7, 8]
    (∀ o ∈ [BufOp.read 2, .read 2, .read 1, .setLimit 5, .read 9], b.HasOp o) ∧
    (b.runOps [.read 2, .read 2, .read 1, .setLimit 5, .read 9]).2 = [.got [1, 2], .got [3], .eof, .unit, .got [7, 8]] :=
  ⟨by simp [WBuf.HasOp, newWrappedBuffer], by decide⟩

example : ∀ o ∈ [BufOp.read 2, .setLimit 2, .write [9, 9, 9]], (newWrappedBuffer [1, 2, 3] []).HasOp o := by
  simp [WBuf.HasOp, newWrappedBuffer]

end Dparm
