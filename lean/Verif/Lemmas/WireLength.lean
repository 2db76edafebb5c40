import Verif.Lemmas.Start
/-!
# Lemmas: how long a transmitted command is
-/
namespace Dparm
open Spec

/-! ## Commands built by the TCG layer are never empty -/

theorem writeByte_wpos (c : ABuf) (x : Byte) : c.wpos ≤ (c.writeByte x).1.wpos := by
  unfold ABuf.writeByte
  split
  · exact Nat.le_refl _
  · exact Nat.le_succ _

theorem cmdWrite_wpos {c c' : ABuf} {p : Bytes} {e : Option GoErr} (h : Cmd.write c p = .ret (c', e)) :
    c.wpos ≤ c'.wpos ∧ (c.limit = c'.limit) := by
  unfold Cmd.write ABuf.write at h
  by_cases h1 : c.wpos > c.limit
  · rw [if_pos h1] at h; cases h
  · rw [if_neg h1] at h
    by_cases h2 : min (c.limit - c.wpos) p.length = 0
    · simp only [h2, if_true, P.ret.injEq, Prod.mk.injEq] at h
      obtain ⟨rfl, -⟩ := h
      exact ⟨Nat.le_refl _, rfl⟩
    · simp only [h2, if_false, P.ret.injEq, Prod.mk.injEq] at h
      obtain ⟨rfl, -⟩ := h
      exact ⟨Nat.le_add_right _ _, rfl⟩

theorem addString_wpos {c c' : ABuf} {t : Bytes} {l : Option Int} {e : Option GoErr}
    (h : Cmd.addString c t l = .ret (c', e)) : c.wpos ≤ c'.wpos := by
  unfold Cmd.addString at h
  dsimp only at h
  repeat' (split at h)
  all_goals first
    | exact (cmdWrite_wpos h).1
    | (simp only [P.ret.injEq, Prod.mk.injEq] at h; obtain ⟨rfl, -⟩ := h; exact Nat.le_refl _)

theorem add_wpos {c c' : ABuf} {o : AddOp} {e : Option GoErr} (h : Cmd.add c o = .ret (c', e)) : c.wpos ≤ c'.wpos := by
  cases o with
  | raw d => exact (cmdWrite_wpos h).1
  | str t l => exact addString_wpos h
  | tok a =>
    cases a with
    | method m => exact addString_wpos (c := c) (t := m.bytes) (l := some m.bytes.length) h
    | int v =>
      have h' : P.ret (c.writeByte (BitVec.ofInt 8 v)) = P.ret (c', e) := h
      have := writeByte_wpos c (BitVec.ofInt 8 v)
      simp only [P.ret.injEq] at h'
      rw [h'] at this
      exact this
    | uid u =>
      have hw := writeByte_wpos c 0xa8
      unfold Cmd.add Cmd.addToken at h
      rcases hb : c.writeByte 0xa8 with ⟨c1, e1⟩
      rw [hb] at hw
      cases e1 with
      | none =>
        simp only [hb] at h
        exact Nat.le_trans hw (cmdWrite_wpos h).1
      | some e1 =>
        simp only [hb, P.ret.injEq, Prod.mk.injEq] at h
        obtain ⟨rfl, -⟩ := h
        exact hw
  | num v =>
    unfold Cmd.add Cmd.addNumber at h
    by_cases h0 : v.toNat < 64
    · simp only [h0, if_true, P.ret.injEq] at h
      have := writeByte_wpos c ((v &&& 0x3f).setWidth 8)
      rw [h] at this
      exact this
    · simp only [h0, if_false] at h
      generalize (if v.toNat < 0x100 then ((0x81 : Byte), 0)
        else if v.toNat < 0x10000 then (0x82, 1)
        else if v.toNat < 0x100000000 then (0x84, 3) else (0x88, 7)) = hs at h
      obtain ⟨hd, n⟩ := hs
      dsimp only at h
      have hw := writeByte_wpos c hd
      rcases hb : c.writeByte hd with ⟨c1, e1⟩
      rw [hb] at hw
      cases e1 with
      | none =>
        simp only [hb] at h
        exact Nat.le_trans hw (cmdWrite_wpos h).1
      | some e1 =>
        simp only [hb, P.ret.injEq, Prod.mk.injEq] at h
        obtain ⟨rfl, -⟩ := h
        exact hw

theorem addAll_wpos {ops : List AddOp} : ∀ {c c' : ABuf} {es : List (Option GoErr)},
    Cmd.addAll c ops = .ret (c', es) → c.wpos ≤ c'.wpos := by
  induction ops with
  | nil =>
    intro c c' es h
    simp only [Cmd.addAll, P.ret.injEq, Prod.mk.injEq] at h
    obtain ⟨rfl, -⟩ := h
    exact Nat.le_refl _
  | cons o os ih =>
    intro c c' es h
    unfold Cmd.addAll at h
    cases h1 : Cmd.add c o with
    | panic => rw [h1] at h; cases h
    | ret x =>
      obtain ⟨c1, e1⟩ := x
      rw [h1] at h
      dsimp only at h
      cases h2 : Cmd.addAll c1 os with
      | panic => rw [h2] at h; cases h
      | ret y =>
        obtain ⟨c2, es2⟩ := y
        rw [h2] at h
        simp only [P.ret.injEq, Prod.mk.injEq] at h
        obtain ⟨rfl, -⟩ := h
        exact Nat.le_trans (add_wpos h1) (ih h2)

theorem initMethod_wpos {c c' : ABuf} {m : MethodArg} {e : Option GoErr}
    (h : Cmd.init.initMethod c m = .ret (c', e)) : c.wpos ≤ c'.wpos := by
  cases m with
  | method m =>
    unfold Cmd.init.initMethod at h
    dsimp only at h
    have hw := writeByte_wpos c 0xa8
    cases h1 : Cmd.write (c.writeByte 0xa8).1 m.bytes with
    | panic => rw [h1] at h; cases h
    | ret y =>
      obtain ⟨c2, e2⟩ := y
      rw [h1] at h
      simp only [P.ret.injEq, Prod.mk.injEq] at h
      obtain ⟨rfl, -⟩ := h
      exact Nat.le_trans hw (cmdWrite_wpos h1).1
  | buf d =>
    unfold Cmd.init.initMethod at h
    dsimp only at h
    cases h1 : Cmd.addRaw c d with
    | panic => rw [h1] at h; cases h
    | ret y =>
      obtain ⟨c2, e2⟩ := y
      rw [h1] at h
      simp only [P.ret.injEq, Prod.mk.injEq] at h
      obtain ⟨rfl, -⟩ := h
      exact (cmdWrite_wpos h1).1

theorem init_wpos {c c' : ABuf} {i : InvokingArg} {m : MethodArg} {e : Option GoErr}
    (h : Cmd.init c i m = .ret (c', e)) : 56 ≤ c'.wpos := by
  have hw : 56 ≤ ((Cmd.reset c).writeByte 0xf8).1.wpos := writeByte_wpos (Cmd.reset c) 0xf8
  unfold Cmd.init at h
  rcases hb : (Cmd.reset c).writeByte 0xf8 with ⟨c1, e1⟩
  rw [hb] at h hw
  cases e1 with
  | some e1 =>
    simp only [P.ret.injEq, Prod.mk.injEq] at h
    obtain ⟨rfl, -⟩ := h
    exact hw
  | none =>
    dsimp only at h
    cases i with
    | method x =>
      simp only [P.ret.injEq, Prod.mk.injEq] at h
      obtain ⟨rfl, -⟩ := h
      exact hw
    | uid u =>
      dsimp only at h
      cases h1 : Cmd.addToken c1 (.uid u) with
      | panic => rw [h1] at h; cases h
      | ret y =>
        obtain ⟨c2, e2⟩ := y
        rw [h1] at h
        have g1 : c1.wpos ≤ c2.wpos := add_wpos (o := .tok (.uid u)) h1
        have g2 := initMethod_wpos h
        exact Nat.le_trans hw (Nat.le_trans g1 g2)
    | buf d =>
      dsimp only at h
      cases h1 : Cmd.addRaw c1 d with
      | panic => rw [h1] at h; cases h
      | ret y =>
        obtain ⟨c2, e2⟩ := y
        rw [h1] at h
        have g1 : c1.wpos ≤ c2.wpos := add_wpos (o := .raw d) h1
        have g2 := initMethod_wpos h
        exact Nat.le_trans hw (Nat.le_trans g1 g2)

theorem pad_wpos (n : Nat) : ∀ c : ABuf, c.wpos ≤ (Cmd.pad n c).1.wpos ∧ (Cmd.pad n c).1.limit = c.limit := by
  induction n with
  | zero => intro c; exact ⟨Nat.le_refl _, rfl⟩
  | succ n ih =>
    intro c
    unfold Cmd.pad
    split
    · have hw := writeByte_wpos c 0
      have hl : (c.writeByte 0).1.limit = c.limit := by
        unfold ABuf.writeByte; split <;> rfl
      rcases hb : c.writeByte 0 with ⟨c1, e1⟩
      rw [hb] at hw hl
      cases e1 with
      | some e1 => exact ⟨hw, hl⟩
      | none => exact ⟨Nat.le_trans hw (ih c1).1, (ih c1).2.trans hl⟩
    · exact ⟨Nat.le_refl _, rfl⟩

theorem finish_wpos {c c' : ABuf} {e : Option GoErr} (h0 : 0 < c.wpos) (h : Cmd.finish c = .ret (c', e)) :
    0 < c'.wpos := by
  unfold Cmd.finish at h
  by_cases hl : c.limit < headerSize
  · rw [if_pos hl] at h
    simp only [P.ret.injEq, Prod.mk.injEq] at h
    obtain ⟨rfl, -⟩ := h
    omega
  · rw [if_neg hl] at h
    dsimp only at h
    obtain ⟨g1, g2⟩ := pad_wpos 4 { c with rpos := headerSize }
    rcases hb : Cmd.pad 4 { c with rpos := headerSize } with ⟨c1, e1⟩
    rw [hb] at h g1 g2
    cases e1 with
    | some e1 =>
      simp only [P.ret.injEq, Prod.mk.injEq] at h
      obtain ⟨rfl, -⟩ := h
      have : c.wpos ≤ c1.wpos := g1
      omega
    | none =>
      dsimp only at h g2
      unfold Cmd.write ABuf.write at h
      have hw0 : c1.resetWrite.wpos = 0 := rfl
      have hl1 : c1.resetWrite.limit = c.limit := g2
      rw [hw0, hl1] at h
      rw [if_neg (by omega)] at h
      generalize hP : OpalHeader.pack _ = pk at h
      have hpl : 4 ≤ pk.length := by
        rw [← hP]
        unfold OpalHeader.pack
        simp only [List.length_append, beBytes_length]
        omega
      have hH : headerSize = 56 := rfl
      rw [if_neg (by omega)] at h
      simp only [P.ret.injEq, Prod.mk.injEq] at h
      obtain ⟨rfl, -⟩ := h
      show 0 < 0 + min (c.limit - 0) pk.length
      omega

theorem complete_wpos {c c' : ABuf} {e : Option GoErr} {eod : Bool} (h0 : 0 < c.wpos)
    (h : Cmd.complete c eod = .ret (c', e)) : 0 < c'.wpos := by
  unfold Cmd.complete at h
  cases eod with
  | false => exact finish_wpos h0 h
  | true =>
  rw [if_pos rfl] at h
  cases h1 : Cmd.write c [0xf9, 0xf0, 0x00, 0x00, 0x00, 0xf1] with
  | panic => rw [h1] at h; cases h
  | ret y =>
    obtain ⟨c1, e1⟩ := y
    rw [h1] at h
    have g := (cmdWrite_wpos h1).1
    cases e1 with
    | some e1 =>
      simp only [P.ret.injEq, Prod.mk.injEq] at h
      obtain ⟨rfl, -⟩ := h
      omega
    | none => exact finish_wpos (by omega) h

theorem make_begun (base : Nat) (inv : InvokingArg) (m : MethodArg) (ops : List AddOp) {c : ABuf} (h : Cmd.make base inv m ops = .ret c) :
    Geo c ∧ 0 < c.wpos := by
  obtain ⟨c', h', g⟩ := make_total base inv m ops
  rw [h] at h'
  simp only [P.ret.injEq] at h'
  subst h'
  refine ⟨g, ?_⟩
  unfold Cmd.make at h
  cases h1 : Cmd.init (newTcgCommand base) inv m with
  | panic => rw [h1] at h; cases h
  | ret y =>
    obtain ⟨c1, e1⟩ := y
    rw [h1, P.ret_bind] at h
    dsimp only at h
    cases h2 : Cmd.addAll c1 ops with
    | panic => rw [h2] at h; cases h
    | ret z =>
      obtain ⟨c2, e2⟩ := z
      rw [h2, P.ret_bind] at h
      dsimp only at h
      cases h3 : Cmd.complete c2 with
      | panic => rw [h3] at h; cases h
      | ret w =>
        obtain ⟨c3, e3⟩ := w
        rw [h3, P.ret_bind] at h
        dsimp only at h
        simp only [P.pure_eq, P.ret.injEq] at h
        subst h
        exact complete_wpos (Nat.lt_of_lt_of_le (by decide) (Nat.le_trans (init_wpos h1) (addAll_wpos h2))) h3

theorem exec_wpos {c c' : ABuf} {o : CmdOp} (h0 : 0 < c.wpos) (h : Cmd.exec c o = .ret c') : 0 < c'.wpos := by
  cases o with
  | add o =>
    simp only [Cmd.exec] at h
    cases h1 : Cmd.add c o with
    | panic => rw [h1] at h; cases h
    | ret y =>
      obtain ⟨c1, e1⟩ := y
      rw [h1] at h
      simp only [P.ret.injEq] at h
      subst h
      exact Nat.lt_of_lt_of_le h0 (add_wpos h1)
  | init i m =>
    simp only [Cmd.exec] at h
    cases h1 : Cmd.init c i m with
    | panic => rw [h1] at h; cases h
    | ret y =>
      obtain ⟨c1, e1⟩ := y
      rw [h1] at h
      simp only [P.ret.injEq] at h
      subst h
      exact Nat.lt_of_lt_of_le (by decide) (init_wpos h1)
  | complete e =>
    simp only [Cmd.exec] at h
    cases h1 : Cmd.complete c e with
    | panic => rw [h1] at h; cases h
    | ret y =>
      obtain ⟨c1, e1⟩ := y
      rw [h1] at h
      simp only [P.ret.injEq] at h
      subst h
      exact complete_wpos h0 h1
  | reset =>
    simp only [Cmd.exec, P.ret.injEq] at h
    subst h
    show 0 < 56
    decide
  | comId v => simp only [Cmd.exec, P.ret.injEq] at h; subst h; exact h0
  | tsn v => simp only [Cmd.exec, P.ret.injEq] at h; subst h; exact h0
  | hsn v => simp only [Cmd.exec, P.ret.injEq] at h; subst h; exact h0

theorem execAll_begun : ∀ (ops : List CmdOp) {c : ABuf}, Geo c → 0 < c.wpos →
    ∃ c', Cmd.execAll c ops = .ret c' ∧ Geo c' ∧ 0 < c'.wpos := by
  intro ops
  induction ops with
  | nil => exact fun {c} g h => ⟨c, rfl, g, h⟩
  | cons o os ih =>
    intro c g h
    obtain ⟨c1, h1, g1, -⟩ := geo_exec g o
    obtain ⟨c2, h2, g2, w2⟩ := ih g1 (exec_wpos h h1)
    exact ⟨c2, by simp only [Cmd.execAll, h1, h2], g2, w2⟩

/-- A command begun with `Init` and built by any operations. -/
theorem built_begun (base : Nat) (inv : InvokingArg) (m : MethodArg) (ops : List CmdOp) :
    ∃ c, Cmd.execAll (newTcgCommand base) (.init inv m :: ops) = .ret c ∧ Geo c ∧ 0 < c.wpos := by
  obtain ⟨c1, h1, g1, -⟩ := geo_exec (newTcgCommand_win base).geo (.init inv m)
  have w1 : 0 < c1.wpos := by
    simp only [Cmd.exec] at h1
    cases h2 : Cmd.init (newTcgCommand base) inv m with
    | panic => rw [h2] at h1; cases h1
    | ret y =>
      obtain ⟨c', e'⟩ := y
      rw [h2] at h1
      simp only [P.ret.injEq] at h1
      subst h1
      exact Nat.lt_of_lt_of_le (by decide) (init_wpos h2)
  obtain ⟨c2, h2, g2, w2⟩ := execAll_begun ops g1 w1
  exact ⟨c2, by simp only [Cmd.execAll, h1, h2], g2, w2⟩

theorem begun_wire_length {c : ABuf} (g : Geo c) (hw : 0 < c.wpos) :
    512 ≤ (Cmd.wire c).length ∧ (Cmd.wire c).length ≤ 61440 ∧ 512 ∣ (Cmd.wire c).length := by
  obtain ⟨⟨k, hk⟩, h2, h3⟩ := getCmdSize_roundUp c
  have hcs : cmdSize = 61440 := rfl
  have hb : c.buf.length = 61440 := by
    unfold ABuf.buf slice
    rw [List.length_take, List.length_drop, g.limit]
    have := g.fits
    omega
  have hle := g.wpos
  rw [wire_eq_take g, List.length_take, hb]
  omega

/-- A built command transmits between 512 and 61440 bytes. -/
theorem make_wire_length (base : Nat) (inv : InvokingArg) (m : MethodArg) (ops : List AddOp) (s : Session) (d : Device)
    {c : ABuf} (h : Cmd.make base inv m ops = .ret c) :
    512 ≤ (Cmd.wire (s.stamp d c)).length ∧ (Cmd.wire (s.stamp d c)).length ≤ 61440 ∧
      512 ∣ (Cmd.wire (s.stamp d c)).length := by
  obtain ⟨c', h', g⟩ := make_total base inv m ops
  rw [h] at h'
  simp only [P.ret.injEq] at h'
  subst h'
  have hw : 0 < c.wpos := (make_begun base inv m ops h).2
  obtain ⟨g', hw', -⟩ := geo_stamp g s d
  obtain ⟨⟨k, hk⟩, h2, h3⟩ := getCmdSize_roundUp (s.stamp d c)
  have hcs : cmdSize = 61440 := rfl
  have hb : (s.stamp d c).buf.length = 61440 := by
    unfold ABuf.buf slice
    rw [List.length_take, List.length_drop, g'.limit]
    have := g'.fits
    omega
  have hle := g'.wpos
  rw [wire_eq_take g', List.length_take, hb]
  omega

end Dparm
