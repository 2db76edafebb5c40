import Verif.Model.Struc
import Verif.Spec.Record
import Verif.Lemmas.Lists
/-!
# struc.Unpack on a wrapped buffer
-/
namespace Dparm
open Spec

theorem readFull_ok (b : WBuf) (n : Nat) (h : b.rpos + n ≤ b.limit) (hl : b.limit ≤ b.mem.length) :
    b.readFull n = .ret ({ b with rpos := b.rpos + n }, slice b.mem b.rpos n, none) := by
  unfold WBuf.readFull
  rw [WBuf.readFullLoop]
  by_cases hn : n = 0
  · subst hn
    simp [slice]
  · rw [if_neg (by simp; omega)]
    unfold WBuf.read
    rw [if_neg (by omega)]
    simp only [List.length_nil, Nat.sub_zero]
    rw [Nat.min_eq_right (by omega), if_neg hn]
    simp only [P.ret_bind, List.nil_append]
    cases n with
    | zero => exact absurd rfl hn
    | succ n =>
      rw [WBuf.readFullLoop, if_pos]
      rw [slice_length _ _ _ (by omega)]
      exact Nat.le_refl _

theorem readFull_short (b : WBuf) (n : Nat) (h : b.limit < b.rpos + n) (hr : b.rpos ≤ b.limit)
    (hl : b.limit ≤ b.mem.length) :
    ∃ b' d e, b.readFull n = .ret (b', d, some e) ∧ (e = .eof ∨ e = .unexpectedEof) := by
  unfold WBuf.readFull
  rw [WBuf.readFullLoop]
  rw [if_neg (by simp; omega)]
  unfold WBuf.read
  rw [if_neg (by omega)]
  simp only [List.length_nil, Nat.sub_zero]
  rw [Nat.min_eq_left (by omega)]
  by_cases h0 : b.limit - b.rpos = 0
  · rw [if_pos h0]
    simp
    exact ⟨_, _, _, ⟨rfl, rfl, rfl⟩, Or.inl rfl⟩
  · rw [if_neg h0]
    simp only [P.ret_bind, List.nil_append]
    have hlen : (slice b.mem b.rpos (b.limit - b.rpos)).length = b.limit - b.rpos := slice_length _ _ _ (by omega)
    cases n with
    | zero => omega
    | succ n =>
      rw [WBuf.readFullLoop, if_neg (by rw [hlen]; omega)]
      unfold WBuf.read
      have e1 : b.rpos + (b.limit - b.rpos) = b.limit := by omega
      simp only [e1]
      rw [if_neg (by omega), hlen]
      simp only [Nat.sub_self, Nat.zero_min, if_true, P.ret_bind]
      rw [if_pos (by omega)]
      exact ⟨_, _, _, rfl, Or.inr rfl⟩

theorem unpackFields_spec (ns : List Nat) : ∀ (b : WBuf), b.rpos ≤ b.limit → b.limit = b.mem.length →
    (b.rpos + ns.sum ≤ b.limit → unpackFields ns b = .ret (.ok (pieces ns (b.mem.drop b.rpos)))) ∧
    (b.limit < b.rpos + ns.sum → ∃ e, unpackFields ns b = .ret (.err e) ∧ (e = .eof ∨ e = .unexpectedEof)) := by
  induction ns with
  | nil =>
    intro b h1 h2
    exact ⟨fun _ => rfl, fun h => by simp at h; omega⟩
  | cons n ns ih =>
    intro b h1 h2
    simp only [List.sum_cons]
    by_cases hn : b.rpos + n ≤ b.limit
    · obtain ⟨i1, i2⟩ := ih { b with rpos := b.rpos + n } hn h2
      rw [unpackFields, readFull_ok b n hn (by omega)]
      simp only [P.ret_bind]
      constructor
      · intro h
        rw [i1 (by simp only; omega)]
        simp only [P.ret_bind, pieces, List.drop_drop, slice]
      · intro h
        obtain ⟨e, he, ho⟩ := i2 (by simp only; omega)
        rw [he]
        exact ⟨e, rfl, ho⟩
    · obtain ⟨b', d, e, he, ho⟩ := readFull_short b n (by omega) h1 (by omega)
      rw [unpackFields, he]
      exact ⟨fun h => by omega, fun _ => ⟨e, rfl, ho⟩⟩

/-- Unpacking a record: its fields are the consecutive pieces, or an end-of-data error if it is too short. -/
theorem unpackBytes_spec (ns : List Nat) (d : Bytes) :
    (ns.sum ≤ d.length → unpackBytes ns d = .ret (.ok (pieces ns d))) ∧
    (d.length < ns.sum → ∃ e, unpackBytes ns d = .ret (.err e) ∧ (e = .eof ∨ e = .unexpectedEof)) := by
  have := unpackFields_spec ns { mem := d, limit := d.length, wpos := 0, rpos := 0 } (Nat.zero_le _) rfl
  simpa [unpackBytes] using this

theorem pieces_length (ns : List Nat) : ∀ d : Bytes, (pieces ns d).length = ns.length := by
  induction ns with
  | nil => intro d; rfl
  | cons n ns ih => intro d; simp [pieces, ih]

/-- Field `i` of a record lies behind the fields before it. -/
theorem pieces_getD (ns : List Nat) : ∀ (d : Bytes) (i : Nat), i < ns.length →
    (pieces ns d).getD i [] = slice d (ns.take i).sum (ns.getD i 0) := by
  induction ns with
  | nil => intro d i h; simp at h
  | cons n ns ih =>
    intro d i h
    cases i with
    | zero => simp [pieces, slice]
    | succ i =>
      have := ih (d.drop n) i (by simpa using h)
      simp only [pieces, List.getD_cons_succ, List.take_succ_cons, List.sum_cons]
      rw [this]
      unfold slice
      rw [List.drop_drop]

end Dparm
