import Verif.Lemmas.Session
/-!
# Lemmas: the bytes a finished, stamped command puts on the wire
-/
namespace Dparm
open Spec

theorem wire_eq_take {c : ABuf} (g : Geo c) : Cmd.wire c = c.buf.take (Cmd.getCmdSize c) := by
  have hw := g.wpos
  have hc : cmdSize = 61440 := rfl
  have hl := g.limit
  have := getCmdSize_roundUp c
  unfold Cmd.wire ABuf.buf slice
  rw [List.take_take, Nat.min_eq_left]
  rw [hl]
  obtain ⟨⟨k, hk⟩, _, h3⟩ := this
  omega

theorem geo_stamp {c : ABuf} (g : Geo c) (s : Session) (d : Device) :
    Geo (s.stamp d c) ∧ (s.stamp d c).wpos = c.wpos ∧ (s.stamp d c).limit = c.limit := by
  obtain ⟨c1, e1, g1, _⟩ := geo_exec g (.hsn (s.hsn.setWidth 32))
  simp only [Cmd.exec, P.ret.injEq] at e1; subst e1
  obtain ⟨c2, e2, g2, _⟩ := geo_exec g1 (.tsn (s.tsn.setWidth 32))
  simp only [Cmd.exec, P.ret.injEq] at e2; subst e2
  obtain ⟨c3, e3, g3, _⟩ := geo_exec g2 (.comId d.baseComId)
  simp only [Cmd.exec, P.ret.injEq] at e3; subst e3
  exact ⟨g3, rfl, rfl⟩

/-- The stamped buffer: three fields replaced, every other byte as before. -/
theorem stamp_buf {c : ABuf} (g : Geo c) (s : Session) (d : Device) :
    slice (s.stamp d c).buf 4 4 = beBytes 2 d.baseComId.toNat ++ [0, 0] ∧
    slice (s.stamp d c).buf 20 4 = leBytes 4 (s.tsn.toNat % 2 ^ 32) ∧
    slice (s.stamp d c).buf 24 4 = leBytes 4 (s.hsn.toNat % 2 ^ 32) ∧
    (∀ j, ¬ (4 ≤ j ∧ j < 8) → ¬ (20 ≤ j ∧ j < 28) → (s.stamp d c).buf[j]? = c.buf[j]?) := by
  obtain ⟨c1, e1, g1, _⟩ := geo_exec g (.hsn (s.hsn.setWidth 32))
  simp only [Cmd.exec, P.ret.injEq] at e1; subst e1
  obtain ⟨c2, e2, g2, _⟩ := geo_exec g1 (.tsn (s.tsn.setWidth 32))
  simp only [Cmd.exec, P.ret.injEq] at e2; subst e2
  have a := stamping_frame g d.baseComId (s.tsn.setWidth 32) (s.hsn.setWidth 32)
  have b := stamping_frame g1 d.baseComId (s.tsn.setWidth 32) (s.hsn.setWidth 32)
  have cc := stamping_frame g2 d.baseComId (s.tsn.setWidth 32) (s.hsn.setWidth 32)
  unfold Session.stamp
  refine ⟨cc.2.2.2.1, ?_, ?_, ?_⟩
  · rw [← BitVec.toNat_setWidth]
    rw [← b.2.2.2.2.1]
    apply List.ext_getElem?
    intro j
    rw [getElem?_slice, getElem?_slice]
    split
    · rw [cc.1 _ (by omega)]
    · rfl
  · rw [← BitVec.toNat_setWidth]
    rw [← a.2.2.2.2.2.1]
    apply List.ext_getElem?
    intro j
    rw [getElem?_slice, getElem?_slice]
    split
    · rw [cc.1 _ (by omega), b.2.1 _ (by omega)]
    · rfl
  · intro j h1 h2
    rw [cc.1 _ h1, b.2.1 _ (by omega), a.2.2.1 _ (by omega)]

theorem slice_take (m : Bytes) (i n k : Nat) (h : i + n ≤ k) : slice (m.take k) i n = slice m i n := by
  apply List.ext_getElem?
  intro j
  rw [getElem?_slice, getElem?_slice]
  split
  · rw [List.getElem?_take, if_pos (by omega)]
  · rfl

/-- Fields of the bytes on the wire of a command something was written to. -/
theorem wire_stamp {c : ABuf} (g : Geo c) (hw : 0 < c.wpos) (s : Session) (d : Device) :
    slice (Cmd.wire (s.stamp d c)) 4 4 = beBytes 2 d.baseComId.toNat ++ [0, 0] ∧
    slice (Cmd.wire (s.stamp d c)) 20 4 = leBytes 4 (s.tsn.toNat % 2 ^ 32) ∧
    slice (Cmd.wire (s.stamp d c)) 24 4 = leBytes 4 (s.hsn.toNat % 2 ^ 32) ∧
    (Cmd.wire (s.stamp d c)).drop 28 = (Cmd.wire c).drop 28 := by
  obtain ⟨g', hw', _⟩ := geo_stamp g s d
  obtain ⟨b1, b2, b3, b4⟩ := stamp_buf g s d
  have hsz : 512 ≤ Cmd.getCmdSize (s.stamp d c) := by
    obtain ⟨⟨k, hk⟩, h2, _⟩ := getCmdSize_roundUp (s.stamp d c)
    omega
  have hsame : Cmd.getCmdSize (s.stamp d c) = Cmd.getCmdSize c := by
    unfold Cmd.getCmdSize; rw [hw']
  rw [wire_eq_take g', wire_eq_take g]
  refine ⟨?_, ?_, ?_, ?_⟩
  · rw [slice_take _ _ _ _ (by omega), b1]
  · rw [slice_take _ _ _ _ (by omega), b2]
  · rw [slice_take _ _ _ _ (by omega), b3]
  · apply List.ext_getElem?
    intro j
    rw [List.getElem?_drop, List.getElem?_drop, List.getElem?_take, List.getElem?_take, hsame]
    split
    · rw [b4 _ (by omega) (by omega)]
    · rfl

/-- A command whose tokens fit is built without panic and with the specified content. -/
theorem make_win (base : Nat) (inv : InvokingArg) (m : MethodArg) (ops : List AddOp)
    (hinv : ∀ x, inv ≠ .method x)
    (hfit : 56 + (encInit inv m).length + (encAdds ops).length + 6 ≤ 61440) :
    ∃ c, Cmd.make base inv m ops = .ret c ∧ Geo c ∧ c.wpos = 56 ∧
      (let n := (encInit inv m ++ encAdds ops).length + 6
       c.buf = zeros 16 ++ beBytes 4 (up4 n + 36) ++ zeros 20 ++ beBytes 4 (up4 n + 12) ++ zeros 8
        ++ beBytes 4 n ++ (encInit inv m ++ encAdds ops ++ trailer true ++ zeros (61384 - n))) := by
  have w0 := newTcgCommand_win base
  obtain ⟨c1, e1, w1, f1⟩ := init_win w0.limit w0.fits inv m hinv
  have hl1 : (zeros headerSize ++ encInit inv m).length = 56 + (encInit inv m).length := by simp
  have hc : cmdSize = 61440 := rfl
  rw [List.take_of_length_le (by omega)] at w1
  obtain ⟨c2, e2, w2, f2⟩ := addAll_win w1 ops
  rw [List.take_of_length_le (by rw [List.length_append]; omega)] at w2
  have ht6 : (trailer true).length = 6 := rfl
  obtain ⟨c3, e3, hw3, hl3, hb3, f3⟩ := complete_win w2 true
    (by rw [List.length_append]; omega) (by rw [List.length_append, List.length_append]; omega)
  have hgeo : Geo c3 := by
    refine ⟨hl3, ?_, by rw [hw3]; decide⟩
    rw [f3.off, f3.len]; exact w2.fits
  refine ⟨c3, ?_, hgeo, hw3, ?_⟩
  · unfold Cmd.make
    rw [e1, P.ret_bind]
    simp only [e2, P.ret_bind, e3]
    rfl
  · simp only
    rw [hb3]
    obtain ⟨E, hE⟩ : ∃ E, E = encInit inv m ++ encAdds ops := ⟨_, rfl⟩
    have hEl : E.length = (encInit inv m).length + (encAdds ops).length := by
      rw [hE, List.length_append]
    have htot : zeros headerSize ++ encInit inv m ++ encAdds ops ++ trailer true
        = zeros 56 ++ (E ++ trailer true) := by
      rw [hE]; simp [List.append_assoc]
    have hz : ∀ i n, i + n ≤ 56 → slice (zeros 56 ++ (E ++ trailer true)) i n = zeros n := by
      intro i n h
      unfold slice
      rw [List.drop_append_of_le_length (by simp; omega), drop_zeros,
        List.take_append_of_le_length (by simp; omega), take_zeros]
      congr 1; omega
    have hlen : (zeros 56 ++ (E ++ trailer true)).length = E.length + 62 := by
      simp only [List.length_append, zeros_length, ht6]; omega
    rw [htot, hz 0 16 (by omega), hz 20 20 (by omega), hz 44 8 (by omega), hlen, ← hE,
      drop_left' (zeros 56) _ 56 (by simp)]
    have n1 : up4 (E.length + 62) - 20 = up4 (E.length + 6) + 36 := by unfold up4; omega
    have n2 : up4 (E.length + 62) - 44 = up4 (E.length + 6) + 12 := by unfold up4; omega
    rw [n1, n2, show E.length + 62 - 56 = E.length + 6 by omega,
      show cmdSize - (E.length + 62) = 61384 - (E.length + 6) by omega]

theorem slice_zeros (n i k : Nat) (h : i + k ≤ n) : slice (zeros n) i k = zeros k := by
  unfold slice; rw [drop_zeros, take_zeros]; congr 1; omega

/-- The transmitted bytes of a command built and stamped by a session, when it fits the buffer. -/
theorem make_wire (base : Nat) (inv : InvokingArg) (m : MethodArg) (ops : List AddOp)
    (s : Session) (d : Device) (hinv : ∀ x, inv ≠ .method x)
    (hfit : 56 + (encInit inv m).length + (encAdds ops).length + 6 ≤ 61440) :
    ∃ c, Cmd.make base inv m ops = .ret c ∧ Geo c ∧ c.wpos = 56 ∧
      Cmd.wire (s.stamp d c) = wireImage d.baseComId.toNat (leBytes 4 (s.tsn.toNat % 2 ^ 32))
        (leBytes 4 (s.hsn.toNat % 2 ^ 32)) (encInit inv m ++ encAdds ops) := by
  obtain ⟨c, e, g, hw, hb⟩ := make_win base inv m ops hinv hfit
  refine ⟨c, e, g, hw, ?_⟩
  obtain ⟨g', hw', _⟩ := geo_stamp g s d
  obtain ⟨b1, b2, b3, b4⟩ := stamp_buf g s d
  have hsz : Cmd.getCmdSize (s.stamp d c) = 512 := by
    unfold Cmd.getCmdSize; rw [hw', hw]; decide
  rw [wire_eq_take g', hsz]
  obtain ⟨E, hE⟩ : ∃ E, E = encInit inv m ++ encAdds ops := ⟨_, rfl⟩
  have hEl : E.length = (encInit inv m).length + (encAdds ops).length := by
    rw [hE, List.length_append]
  simp only [← hE] at hb ⊢
  obtain ⟨X, hX⟩ : ∃ X, X = beBytes 4 (up4 (E.length + 6) + 36) := ⟨_, rfl⟩
  obtain ⟨Y, hY⟩ : ∃ X, X = beBytes 4 (up4 (E.length + 6) + 12) := ⟨_, rfl⟩
  obtain ⟨Z, hZ⟩ : ∃ X, X = beBytes 4 (E.length + 6) := ⟨_, rfl⟩
  have lX : X.length = 4 := by rw [hX, beBytes_length]
  have lY : Y.length = 4 := by rw [hY, beBytes_length]
  have lZ : Z.length = 4 := by rw [hZ, beBytes_length]
  have htl : (trailer true).length = 6 := rfl
  have hfull : (s.stamp d c).buf =
      ((zeros 4 ++ beBytes 2 d.baseComId.toNat ++ zeros 2) ++ zeros 8 ++ X
        ++ leBytes 4 (s.tsn.toNat % 2 ^ 32) ++ leBytes 4 (s.hsn.toNat % 2 ^ 32) ++ zeros 12 ++ Y
        ++ zeros 8 ++ Z) ++ ((E ++ trailer true) ++ zeros (61384 - (E.length + 6))) := by
    rw [← hX, ← hY, ← hZ] at hb
    obtain ⟨B, hB⟩ : ∃ B, B = (s.stamp d c).buf := ⟨_, rfl⟩
    rw [← hB] at b1 b2 b3 b4 ⊢
    have hcl : c.buf.length = 61440 := by
      unfold ABuf.buf
      rw [slice_length _ _ _ (by rw [g.limit]; exact g.fits), g.limit]
    have hBl : B.length = 61440 := by
      rw [hB]; unfold ABuf.buf
      rw [slice_length _ _ _ (by rw [g'.limit]; exact g'.fits), g'.limit]
    have same : ∀ i n, (∀ j, i ≤ j → j < i + n → ¬ (4 ≤ j ∧ j < 8) ∧ ¬ (20 ≤ j ∧ j < 28)) →
        slice B i n = slice c.buf i n := by
      intro i n hj
      apply List.ext_getElem?
      intro j
      rw [getElem?_slice, getElem?_slice]
      split
      · obtain ⟨h1, h2⟩ := hj (i + j) (by omega) (by omega)
        rw [b4 _ h1 h2]
      · rfl
    have s0 : slice B 0 4 = zeros 4 := by
      rw [same 0 4 (by omega), hb]
      have := slice_mid [] (zeros 4) (zeros 12 ++ X ++ zeros 20 ++ Y ++ zeros 8 ++ Z
        ++ (E ++ trailer true ++ zeros (61384 - (E.length + 6)))) 0 4 rfl (by simp)
      rw [← this]
      congr 1
    have s8 : slice B 8 12 = zeros 8 ++ X := by
      rw [same 8 12 (by omega), hb]
      have := slice_mid (zeros 8) (zeros 8 ++ X) (zeros 20 ++ Y ++ zeros 8 ++ Z
        ++ (E ++ trailer true ++ zeros (61384 - (E.length + 6)))) 8 12 (by simp) (by simp [lX])
      rw [← this]
      congr 1
      rw [← zeros_append 8 8]; simp only [List.append_assoc]
    have s28 : B.drop 28 = zeros 12 ++ Y ++ zeros 8 ++ Z
        ++ (E ++ trailer true ++ zeros (61384 - (E.length + 6))) := by
      have h1 : B.drop 28 = c.buf.drop 28 := by
        apply List.ext_getElem?
        intro j
        rw [List.getElem?_drop, List.getElem?_drop, b4 _ (by omega) (by omega)]
      rw [h1, hb]
      have := drop_left' (zeros 16 ++ X ++ zeros 8) (zeros 12 ++ Y ++ zeros 8 ++ Z
        ++ (E ++ trailer true ++ zeros (61384 - (E.length + 6)))) 28 (by simp [lX])
      rw [← this]
      congr 1
      rw [← zeros_append 8 12]; simp only [List.append_assoc]
    have split : B = slice B 0 4 ++ slice B 4 4 ++ slice B 8 12 ++ slice B 20 4 ++ slice B 24 4
        ++ B.drop 28 := by
      have h1 := slice_append_slice B 0 4 4
      have h2 := slice_append_slice B 0 8 12
      have h3 := slice_append_slice B 0 20 4
      have h4 := slice_append_slice B 0 24 4
      simp only [Nat.zero_add] at h1 h2 h3 h4
      rw [h1, h2, h3, h4]
      unfold slice
      rw [List.drop_zero, List.take_append_drop]
    rw [split, s0, b1, s8, b2, b3, s28]
    have z2 : ([0, 0] : Bytes) = zeros 2 := rfl
    rw [z2]
    simp only [List.append_assoc]
  rw [hfull]
  unfold wireImage
  simp only
  have htr : ([0xf9, 0xf0, 0x00, 0x00, 0x00, 0xf1] : Bytes) = trailer true := rfl
  rw [htr]
  have hbl : (E ++ trailer true).length = E.length + 6 := by rw [List.length_append, htl]
  rw [hbl, ← hX, ← hY, ← hZ]
  obtain ⟨H, hH⟩ : ∃ H, H = zeros 4 ++ beBytes 2 d.baseComId.toNat ++ zeros 2 ++ zeros 8 ++ X
        ++ leBytes 4 (s.tsn.toNat % 2 ^ 32) ++ leBytes 4 (s.hsn.toNat % 2 ^ 32) ++ zeros 12 ++ Y
        ++ zeros 8 ++ Z := ⟨_, rfl⟩
  rw [← hH]
  have lH : H.length = 56 := by
    rw [hH]
    simp only [List.length_append, zeros_length, beBytes_length, leBytes_length, lX, lY, lZ]
  rw [← List.append_assoc, List.take_append, List.take_append (l₁ := H ++ (E ++ trailer true)) (l₂ := zeros 512)]
  congr 1
  rw [take_zeros, take_zeros]
  congr 1
  have hl2 : (H ++ (E ++ trailer true)).length = E.length + 62 := by
    rw [List.length_append, lH, hbl]; omega
  rw [hl2]
  omega

end Dparm
