import Verif.Spec.Tper
import Verif.Lemmas.WireLength
/-!
# Lemmas: a packet the drive can read was transmitted in 512 bytes
-/
namespace Dparm
open Spec

/-- What `make` leaves: the first 512 bytes to transmit, or a full buffer whose packet length is still zero. -/
theorem make_short (base : Nat) (inv : InvokingArg) (m : MethodArg) (ops : List AddOp) (hinv : ∀ x, inv ≠ .method x)
    {c : ABuf} (h : Cmd.make base inv m ops = .ret c) :
    Geo c ∧ (c.wpos = 56 ∨ (0 < c.wpos ∧ slice c.buf 40 4 = zeros 4)) := by
  have w0 := newTcgCommand_win base
  obtain ⟨c1, e1, w1, f1⟩ := init_win w0.limit w0.fits inv m hinv
  obtain ⟨c2, e2, w2, f2⟩ := addAll_win w1 ops
  obtain ⟨K, hK⟩ : ∃ K, K = ((zeros headerSize ++ encInit inv m).take cmdSize ++ encAdds ops).take cmdSize := ⟨_, rfl⟩
  rw [← hK] at w2
  have hpre : ∃ x, K = zeros 56 ++ x := by
    have hc : cmdSize = 56 + 61384 := rfl
    refine ⟨((encInit inv m).take 61384 ++ encAdds ops).take 61384, ?_⟩
    have a1 : (zeros headerSize ++ encInit inv m).take cmdSize = zeros 56 ++ (encInit inv m).take 61384 := by
      rw [hc, List.take_append, zeros_length, List.take_of_length_le (by rw [zeros_length]; decide)]
      rfl
    rw [hK, a1, List.append_assoc, hc, List.take_append, zeros_length, List.take_of_length_le (by rw [zeros_length]; decide)]
  obtain ⟨x, hx⟩ := hpre
  have h56 : 56 ≤ K.length := by rw [hx, List.length_append, zeros_length]; omega
  obtain ⟨c3, e3, w3, f3⟩ := write_win w2 [0xf9, 0xf0, 0x00, 0x00, 0x00, 0xf1]
  have hmk : Cmd.make base inv m ops = (do let (c, _) ← Cmd.complete c2; return c) := by
    unfold Cmd.make
    rw [e1, P.ret_bind]
    simp only [e2, P.ret_bind]
  rw [hmk] at h
  by_cases hfull : K.length = cmdSize
  · rw [if_pos (.inr hfull)] at e3
    have hc : Cmd.complete c2 = .ret (c3, some .eof) := by
      unfold Cmd.complete
      simp only [if_true, e3]
    rw [hc] at h
    have : c3 = c := by simpa using h
    subst this
    refine ⟨w3.geo, .inr ⟨?_, ?_⟩⟩
    · rw [w3.wpos, List.length_take, List.length_append]
      have : cmdSize = 61440 := rfl
      omega
    · rw [w3.window, List.take_append_of_le_length (by omega), List.take_of_length_le (by omega), hx, List.append_assoc]
      unfold slice
      rw [List.drop_append_of_le_length (by rw [zeros_length]; omega), drop_zeros,
        List.take_append_of_le_length (by rw [zeros_length]; omega), take_zeros]
      rfl
  · rw [if_neg (by
      rintro (h | h)
      · cases h
      · exact hfull h)] at e3
    obtain ⟨c4, e4, p4, l4, b4, f4⟩ := finish_win w3 (by
      rw [List.length_take, List.length_append]
      have : cmdSize = 61440 := rfl
      omega)
    have hc : Cmd.complete c2 = .ret (c4, none) := by
      unfold Cmd.complete
      simp only [if_true, e3, e4]
    rw [hc] at h
    have : c4 = c := by simpa using h
    subst this
    refine ⟨⟨l4, ?_, by rw [p4]; decide⟩, .inl p4⟩
    rw [f4.off, f4.len]
    exact w3.fits

/-- A transmitted packet the drive can read is 512 bytes long. -/
theorem make_readable_length (base : Nat) (inv : InvokingArg) (m : MethodArg) (ops : List AddOp)
    (hinv : ∀ x, inv ≠ .method x) (s : Session) (d : Device) {c : ABuf} (h : Cmd.make base inv m ops = .ret c)
    {p : Packet} (hp : readPacket (Cmd.wire (s.stamp d c)) = some p) :
    (Cmd.wire (s.stamp d c)).length ≤ 4096 ∧ 512 ∣ (Cmd.wire (s.stamp d c)).length := by
  refine ⟨?_, (make_wire_length base inv m ops s d h).2.2⟩
  obtain ⟨g, hc⟩ := make_short base inv m ops hinv h
  rcases hc with hw | ⟨hw, hz⟩
  · obtain ⟨g', hw', -⟩ := geo_stamp g s d
    obtain ⟨⟨k, hk⟩, h2, h3⟩ := getCmdSize_roundUp (s.stamp d c)
    rw [wire_eq_take g', List.length_take]
    omega
  · exfalso
    obtain ⟨-, -, -, hd⟩ := wire_stamp g hw s d
    have hl := (make_wire_length base inv m ops s d h).1
    have hl' : 512 ≤ (Cmd.wire c).length := (begun_wire_length g hw).1
    have e : slice (Cmd.wire (s.stamp d c)) 40 4 = zeros 4 := by
      have h1 : ∀ l : Bytes, slice l 40 4 = ((l.drop 28).drop 12).take 4 := by
        intro l; unfold slice; rw [List.drop_drop]
      rw [h1, hd, ← h1, wire_eq_take g, slice_take _ _ _ _ (by
        obtain ⟨⟨k, hk⟩, h2, h3⟩ := getCmdSize_roundUp c
        omega), hz]
    unfold readPacket at hp
    simp only [e] at hp
    rw [if_neg] at hp
    · cases hp
    · rintro ⟨-, -, h3, -⟩
      have : beVal (zeros 4) = 0 := by decide
      omega

end Dparm
