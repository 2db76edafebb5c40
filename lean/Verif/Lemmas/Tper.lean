import Verif.Spec.Tper
import Verif.Props.Revert
/-!
# Lemmas on the reference drive: decoding what the library sends
-/
namespace Dparm
open Spec

theorem ofNat8_toNat {n : Nat} (h : n < 256) : (BitVec.ofNat 8 n).toNat = n := by
  simp only [BitVec.toNat_ofNat]
  exact Nat.mod_eq_of_lt h

theorem decodeOne_encode (t : Token) (hw : t.WF) (rest : Bytes) :
    decodeOne (t.encode ++ rest) = some (t, rest) := by
  cases t with
  | tiny s v =>
    have hv : v < 64 := hw
    cases s
    · simp only [Token.encode, Token.flag, List.cons_append, List.nil_append, decodeOne, Bool.false_eq_true, if_false]
      rw [ofNat8_toNat (by omega), if_pos (by omega)]
      simp only [Option.some.injEq, Prod.mk.injEq, Token.tiny.injEq, and_true]
      exact ⟨by simp; omega, by omega⟩
    · simp only [Token.encode, Token.flag, List.cons_append, List.nil_append, decodeOne, if_true]
      rw [ofNat8_toNat (by omega), if_pos (by omega)]
      simp only [Option.some.injEq, Prod.mk.injEq, Token.tiny.injEq, and_true]
      exact ⟨by simp, by omega⟩
  | short b s d =>
    have hd : d.length < 16 := hw
    have hn : 128 + Token.flag b 32 + Token.flag s 16 + d.length < 192 := by
      cases b <;> cases s <;> simp [Token.flag] <;> omega
    simp only [Token.encode, List.cons_append, decodeOne]
    rw [ofNat8_toNat (by omega), if_neg (by omega), if_pos hn]
    have hm : (128 + Token.flag b 32 + Token.flag s 16 + d.length) % 16 = d.length := by
      cases b <;> cases s <;> simp [Token.flag] <;> omega
    have hb : decide ((128 + Token.flag b 32 + Token.flag s 16 + d.length) / 32 % 2 = 1) = b := by
      cases b <;> cases s <;> simp [Token.flag] <;> omega
    have hs : decide ((128 + Token.flag b 32 + Token.flag s 16 + d.length) / 16 % 2 = 1) = s := by
      cases b <;> cases s <;> simp [Token.flag] <;> omega
    rw [hm, hb, hs, if_neg (by simp)]
    simp
  | medium b s d =>
    have hd : d.length < 2048 := hw
    have hn : 192 + Token.flag b 16 + Token.flag s 8 + d.length / 256 < 224 := by
      cases b <;> cases s <;> simp [Token.flag] <;> omega
    have hg : 192 ≤ 192 + Token.flag b 16 + Token.flag s 8 + d.length / 256 := by omega
    simp only [Token.encode, List.cons_append, decodeOne]
    rw [ofNat8_toNat (n := 192 + Token.flag b 16 + Token.flag s 8 + d.length / 256) (by omega),
      ofNat8_toNat (n := d.length % 256) (by omega), if_neg (by omega), if_neg (by omega), if_pos hn]
    have hm : (192 + Token.flag b 16 + Token.flag s 8 + d.length / 256) % 8 * 256 + d.length % 256 = d.length := by
      cases b <;> cases s <;> simp [Token.flag] <;> omega
    have hb : decide ((192 + Token.flag b 16 + Token.flag s 8 + d.length / 256) / 16 % 2 = 1) = b := by
      cases b <;> cases s <;> simp [Token.flag] <;> omega
    have hs : decide ((192 + Token.flag b 16 + Token.flag s 8 + d.length / 256) / 8 % 2 = 1) = s := by
      cases b <;> cases s <;> simp [Token.flag] <;> omega
    rw [hm, hb, hs, if_neg (by simp)]
    simp
  | long b s d =>
    have hd : d.length < 2 ^ 24 := hw
    have hn : 224 + Token.flag b 2 + Token.flag s 1 < 240 := by
      cases b <;> cases s <;> simp [Token.flag]
    have hg : 224 ≤ 224 + Token.flag b 2 + Token.flag s 1 := by omega
    have hlen : (beBytes 3 d.length).length = 3 := beBytes_length _ _
    simp only [Token.encode, List.cons_append, decodeOne, List.append_assoc]
    rw [ofNat8_toNat (by omega), if_neg (by omega), if_neg (by omega), if_neg (by omega), if_pos hn]
    have ht : (beBytes 3 d.length ++ (d ++ rest)).take 3 = beBytes 3 d.length := by
      rw [List.take_append_of_le_length (by omega), List.take_of_length_le (by omega)]
    have hv : beVal (beBytes 3 d.length) = d.length := by
      rw [beVal_beBytes]
      exact Nat.mod_eq_of_lt (by omega)
    have hdr : (beBytes 3 d.length ++ (d ++ rest)).drop 3 = d ++ rest := by
      exact List.drop_left' hlen
    rw [ht, hv, hdr]
    have hb : decide ((224 + Token.flag b 2 + Token.flag s 1) / 2 % 2 = 1) = b := by
      cases b <;> cases s <;> simp [Token.flag]
    have hs : decide ((224 + Token.flag b 2 + Token.flag s 1) % 2 = 1) = s := by
      cases b <;> cases s <;> simp [Token.flag]
    rw [hb, hs, if_neg (by simp [hlen])]
    simp
  | control c =>
    have hc : c < 16 := hw
    simp only [Token.encode, List.cons_append, List.nil_append, decodeOne]
    rw [ofNat8_toNat (by omega), if_neg (by omega), if_neg (by omega), if_neg (by omega), if_neg (by omega)]
    simp only [Option.some.injEq, Prod.mk.injEq, Token.control.injEq, and_true]
    omega

theorem encodeAll_cons (t : Token) (ts : List Token) : encodeAll (t :: ts) = t.encode ++ encodeAll ts := rfl
theorem encodeAll_append (a b : List Token) : encodeAll (a ++ b) = encodeAll a ++ encodeAll b := by
  simp [encodeAll]

theorem decodeAll_encodeAll (ts : List Token) (hw : ∀ t ∈ ts, t.WF) (n : Nat) (hn : ts.length ≤ n) :
    decodeAll n (encodeAll ts) = some ts := by
  induction ts generalizing n with
  | nil => cases n <;> rfl
  | cons t ts ih =>
    cases n with
    | zero => simp at hn
    | succ n =>
      have h1 := decodeOne_encode t (hw t (by simp)) (encodeAll ts)
      have h2 := ih (fun u hu => hw u (by simp [hu])) n (by simpa using hn)
      rw [encodeAll_cons]
      have hpos := encode_length_pos t
      cases he : t.encode with
      | nil => rw [he] at hpos; simp at hpos
      | cons b bs =>
        rw [he] at h1
        simp only [List.cons_append] at h1 ⊢
        simp only [decodeAll, h1, h2, Option.map_some]

theorem encodeAll_length_ge (ts : List Token) : ts.length ≤ (encodeAll ts).length := by
  induction ts with
  | nil => simp
  | cons t ts ih =>
    rw [encodeAll_cons, List.length_append, List.length_cons]
    have := encode_length_pos t
    omega

theorem trailer_encode : encodeAll trailerTokens = [0xf9, 0xf0, 0x00, 0x00, 0x00, 0xf1] := by decide

/-- The drive reads the tokens of a command that fits in 512 bytes. -/
theorem readPacket_image (comId : Nat) (hc : comId < 2 ^ 16) (tsn hsn : Bytes) (ht : tsn.length = 4)
    (hh : hsn.length = 4) (payload : Bytes) (hfit : 56 + payload.length + 6 ≤ 512) :
    readPacket (wireImage comId tsn hsn payload)
      = (decodeAll (payload.length + 6) (payload ++ [0xf9, 0xf0, 0x00, 0x00, 0x00, 0xf1])).map
          (fun ts => ⟨comId, beVal tsn, beVal hsn, ts⟩) := by
  have hup : ∀ n, n + 56 ≤ 512 → n ≤ up4 n ∧ up4 n + 56 ≤ 512 := by intro n hn; unfold up4; omega
  obtain ⟨body, hbe⟩ : ∃ b, payload ++ [0xf9, 0xf0, 0x00, 0x00, 0x00, 0xf1] = b := ⟨_, rfl⟩
  have hbl : body.length = payload.length + 6 := by rw [← hbe]; simp
  obtain ⟨hu1, hu2⟩ := hup body.length (by omega)
  unfold wireImage
  simp only [hbe]
  obtain ⟨n, hn⟩ : ∃ n, n = body.length := ⟨_, rfl⟩
  rw [← hn] at hu1 hu2 ⊢
  obtain ⟨W, hW⟩ : ∃ W, W = ((zeros 4 ++ beBytes 2 comId ++ zeros 2) ++ zeros 8 ++ beBytes 4 (up4 n + 36)
    ++ tsn ++ hsn ++ zeros 12 ++ beBytes 4 (up4 n + 12) ++ zeros 8 ++ beBytes 4 n
    ++ body ++ zeros 512) := ⟨_, rfl⟩
  have b2 : (beBytes 2 comId).length = 2 := beBytes_length _ _
  have b4a : (beBytes 4 (up4 n + 36)).length = 4 := beBytes_length _ _
  have b4b : (beBytes 4 (up4 n + 12)).length = 4 := beBytes_length _ _
  have b4c : (beBytes 4 n).length = 4 := beBytes_length _ _
  have hsl : ∀ (pre mid post : Bytes), W = pre ++ mid ++ post → pre.length + mid.length ≤ 512 →
      slice (W.take 512) pre.length mid.length = mid := by
    intro pre mid post e hle
    unfold slice
    rw [e, List.drop_take, List.take_take, List.append_assoc, List.drop_left, Nat.min_eq_left (by omega),
      List.take_left]
  have hWl : (W.take 512).length = 512 := by
    rw [List.length_take, hW]; simp; omega
  have s52 : slice (W.take 512) 52 4 = beBytes 4 n := by
    have := hsl ((zeros 4 ++ beBytes 2 comId ++ zeros 2) ++ zeros 8 ++ beBytes 4 (up4 n + 36)
      ++ tsn ++ hsn ++ zeros 12 ++ beBytes 4 (up4 n + 12) ++ zeros 8) (beBytes 4 n) (body ++ zeros 512)
      (by rw [hW]; simp only [List.append_assoc])
      (by simp only [List.length_append, zeros_length, b2, b4a, b4b, b4c, ht, hh]; omega)
    simpa only [List.length_append, zeros_length, b2, b4a, b4b, b4c, ht, hh] using this
  have s50 : slice (W.take 512) 50 2 = zeros 2 := by
    have := hsl ((zeros 4 ++ beBytes 2 comId ++ zeros 2) ++ zeros 8 ++ beBytes 4 (up4 n + 36)
      ++ tsn ++ hsn ++ zeros 12 ++ beBytes 4 (up4 n + 12) ++ zeros 6) (zeros 2) (beBytes 4 n ++ body ++ zeros 512)
      (by rw [hW, show zeros 8 = zeros 6 ++ zeros 2 from (zeros_append 6 2).symm]; simp only [List.append_assoc])
      (by simp only [List.length_append, zeros_length, b2, b4a, b4b, b4c, ht, hh]; omega)
    simpa only [List.length_append, zeros_length, b2, b4a, b4b, b4c, ht, hh] using this
  have s40 : slice (W.take 512) 40 4 = beBytes 4 (up4 n + 12) := by
    have := hsl ((zeros 4 ++ beBytes 2 comId ++ zeros 2) ++ zeros 8 ++ beBytes 4 (up4 n + 36)
      ++ tsn ++ hsn ++ zeros 12) (beBytes 4 (up4 n + 12)) (zeros 8 ++ beBytes 4 n ++ body ++ zeros 512)
      (by rw [hW]; simp only [List.append_assoc])
      (by simp only [List.length_append, zeros_length, b2, b4a, b4b, b4c, ht, hh]; omega)
    simpa only [List.length_append, zeros_length, b2, b4a, b4b, b4c, ht, hh] using this
  have s24 : slice (W.take 512) 24 4 = hsn := by
    have := hsl ((zeros 4 ++ beBytes 2 comId ++ zeros 2) ++ zeros 8 ++ beBytes 4 (up4 n + 36)
      ++ tsn) hsn (zeros 12 ++ beBytes 4 (up4 n + 12) ++ zeros 8 ++ beBytes 4 n ++ body ++ zeros 512)
      (by rw [hW]; simp only [List.append_assoc])
      (by simp only [List.length_append, zeros_length, b2, b4a, b4b, b4c, ht, hh]; omega)
    simpa only [List.length_append, zeros_length, b2, b4a, b4b, b4c, ht, hh] using this
  have s20 : slice (W.take 512) 20 4 = tsn := by
    have := hsl ((zeros 4 ++ beBytes 2 comId ++ zeros 2) ++ zeros 8 ++ beBytes 4 (up4 n + 36))
      tsn (hsn ++ zeros 12 ++ beBytes 4 (up4 n + 12) ++ zeros 8 ++ beBytes 4 n ++ body ++ zeros 512)
      (by rw [hW]; simp only [List.append_assoc])
      (by simp only [List.length_append, zeros_length, b2, b4a, b4b, b4c, ht, hh]; omega)
    simpa only [List.length_append, zeros_length, b2, b4a, b4b, b4c, ht, hh] using this
  have s16 : slice (W.take 512) 16 4 = beBytes 4 (up4 n + 36) := by
    have := hsl ((zeros 4 ++ beBytes 2 comId ++ zeros 2) ++ zeros 8) (beBytes 4 (up4 n + 36))
      (tsn ++ hsn ++ zeros 12 ++ beBytes 4 (up4 n + 12) ++ zeros 8 ++ beBytes 4 n ++ body ++ zeros 512)
      (by rw [hW]; simp only [List.append_assoc])
      (by simp only [List.length_append, zeros_length, b2, b4a, b4b, b4c, ht, hh]; omega)
    simpa only [List.length_append, zeros_length, b2, b4a, b4b, b4c, ht, hh] using this
  have s4 : slice (W.take 512) 4 2 = beBytes 2 comId := by
    have := hsl (zeros 4) (beBytes 2 comId)
      (zeros 2 ++ zeros 8 ++ beBytes 4 (up4 n + 36) ++ tsn ++ hsn ++ zeros 12 ++ beBytes 4 (up4 n + 12) ++ zeros 8
        ++ beBytes 4 n ++ body ++ zeros 512)
      (by rw [hW]; simp only [List.append_assoc])
      (by simp only [List.length_append, zeros_length, b2, b4a, b4b, b4c, ht, hh]; omega)
    simpa only [List.length_append, zeros_length, b2, b4a, b4b, b4c, ht, hh] using this
  have s56 : slice (W.take 512) 56 n = body := by
    have := hsl ((zeros 4 ++ beBytes 2 comId ++ zeros 2) ++ zeros 8 ++ beBytes 4 (up4 n + 36)
      ++ tsn ++ hsn ++ zeros 12 ++ beBytes 4 (up4 n + 12) ++ zeros 8 ++ beBytes 4 n) body (zeros 512)
      (by rw [hW])
      (by simp only [List.length_append, zeros_length, b2, b4a, b4b, b4c, ht, hh]; omega)
    simpa only [List.length_append, zeros_length, b2, b4a, b4b, b4c, ht, hh, ← hn] using this
  have v4 : ∀ x, x < 2 ^ 32 → beVal (beBytes 4 x) = x := by
    intro x hx
    rw [beVal_beBytes]
    exact Nat.mod_eq_of_lt (by omega)
  have v2 : beVal (beBytes 2 comId) = comId := by
    rw [beVal_beBytes]
    exact Nat.mod_eq_of_lt (by omega)
  rw [← hW]
  unfold readPacket
  simp only [s52, s50, s40, s24, s20, s16, s4, v2, v4 n (by omega), v4 (up4 n + 12) (by omega),
    v4 (up4 n + 36) (by omega), hWl, s56]
  rw [if_pos ⟨by omega, by decide, by omega, by omega⟩, hn, hbl]

/-- The drive reads a command that fits in 512 bytes as it was meant. -/
theorem readPacket_wireImage (comId : Nat) (hc : comId < 2 ^ 16) (tsn hsn : Bytes) (ht : tsn.length = 4)
    (hh : hsn.length = 4) (ts : List Token) (hw : ∀ t ∈ ts, t.WF)
    (hfit : 56 + (encodeAll ts).length + 6 ≤ 512) :
    readPacket (wireImage comId tsn hsn (encodeAll ts))
      = some ⟨comId, beVal tsn, beVal hsn, ts ++ trailerTokens⟩ := by
  have hbe : encodeAll ts ++ [0xf9, 0xf0, 0x00, 0x00, 0x00, 0xf1] = encodeAll (ts ++ trailerTokens) := by
    rw [encodeAll_append, trailer_encode]
  rw [readPacket_image comId hc tsn hsn ht hh _ hfit, hbe, decodeAll_encodeAll]
  · rfl
  · intro t ht'
    rcases List.mem_append.1 ht' with h | h
    · exact hw t h
    · clear ht'; revert t; decide
  · have := encodeAll_length_ge (ts ++ trailerTokens)
    have h2 : (encodeAll ts ++ [0xf9, 0xf0, 0x00, 0x00, 0x00, 0xf1]).length = (encodeAll ts).length + 6 := by simp
    rw [hbe] at h2
    omega

end Dparm
