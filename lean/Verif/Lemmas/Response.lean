import Verif.Model.Response
import Verif.Spec.Tiling
import Verif.Lemmas.Lists
import Verif.Lemmas.Numbers
/-! Lemmas for the response parser. -/
namespace Dparm
open Spec

theorem clear_80 : ∀ b : Byte, Tok.clear b 0x80 = decide (b.toNat < 128) := by decide +kernel
theorem clear_40 : ∀ b : Byte, 128 ≤ b.toNat → Tok.clear b 0x40 = decide (b.toNat < 192) := by
  decide +kernel
theorem clear_20 : ∀ b : Byte, 192 ≤ b.toNat → Tok.clear b 0x20 = decide (b.toNat < 224) := by
  decide +kernel
theorem clear_10 : ∀ b : Byte, 224 ≤ b.toNat → Tok.clear b 0x10 = decide (b.toNat < 240) := by
  decide +kernel
theorem and_0f : ∀ b : Byte, (b &&& 0x0f).toNat = b.toNat % 16 := by decide +kernel

theorem or_eq_add_of_disjoint {a b : BitVec 32} (k : Nat) (ha : a.toNat % 2 ^ k = 0)
    (hb : b.toNat < 2 ^ k) : (a ||| b).toNat = a.toNat + b.toNat := by
  rw [BitVec.toNat_or]
  have h1 : a.toNat = 2 ^ k * (a.toNat / 2 ^ k) := by
    have := Nat.div_add_mod a.toNat (2 ^ k); omega
  rw [h1, Nat.two_pow_add_eq_or_of_lt hb]

theorem medLen (b c : Byte) :
    ((((b.setWidth 32 &&& 0x07#32) <<< 8) ||| c.setWidth 32) + 2#32).toNat
      = 2 + ((b.toNat % 8) * 256 + c.toNat) := by
  have hc := c.isLt
  have h7 : (b.setWidth 32 &&& 0x07#32).toNat = b.toNat % 8 := by
    rw [BitVec.toNat_and]
    have : (0x07#32).toNat = 2 ^ 3 - 1 := rfl
    rw [this, Nat.and_two_pow_sub_one_eq_mod]
    have := b.isLt
    rw [BitVec.toNat_setWidth]
    omega
  have hs : ((b.setWidth 32 &&& 0x07#32) <<< 8).toNat = (b.toNat % 8) * 256 := by
    rw [BitVec.toNat_shiftLeft, h7, Nat.shiftLeft_eq]
    omega
  have hcw : (c.setWidth 32).toNat = c.toNat := by simp; omega
  have ho := or_eq_add_of_disjoint (a := (b.setWidth 32 &&& 0x07#32) <<< 8) (b := c.setWidth 32) 8
    (by rw [hs]; omega) (by rw [hcw]; omega)
  rw [BitVec.toNat_add, ho, hs, hcw]
  simp
  omega

theorem longLen (x y z : Byte) :
    (((x.setWidth 32 <<< 16) ||| (y.setWidth 32 <<< 8) ||| z.setWidth 32) + 4#32).toNat
      = 4 + (x.toNat * 65536 + y.toNat * 256 + z.toNat) := by
  have hx := x.isLt
  have hy := y.isLt
  have hz := z.isLt
  have sx : (x.setWidth 32 <<< 16).toNat = x.toNat * 65536 := by
    rw [BitVec.toNat_shiftLeft, Nat.shiftLeft_eq]; simp; omega
  have sy : (y.setWidth 32 <<< 8).toNat = y.toNat * 256 := by
    rw [BitVec.toNat_shiftLeft, Nat.shiftLeft_eq]; simp; omega
  have sz : (z.setWidth 32).toNat = z.toNat := by simp; omega
  have o1 := or_eq_add_of_disjoint (a := x.setWidth 32 <<< 16) (b := y.setWidth 32 <<< 8) 16
    (by rw [sx]; omega) (by rw [sy]; omega)
  have o2 := or_eq_add_of_disjoint (a := x.setWidth 32 <<< 16 ||| y.setWidth 32 <<< 8)
    (b := z.setWidth 32) 8 (by rw [o1, sx, sy]; omega) (by rw [sz]; omega)
  rw [BitVec.toNat_add, o2, o1, sx, sy, sz]
  simp
  omega

/-- The parser's length computation agrees with the plain-arithmetic one. -/
theorem tokenLen_eq (m : Nat → Byte) (i : Nat) : tokenLen m i = announcedLen m i := by
  unfold tokenLen announcedLen
  simp only [clear_80]
  by_cases h1 : (m i).toNat < 128
  · simp [h1]
  · simp only [h1, decide_false, Bool.false_eq_true, if_false, clear_40 _ (Nat.not_lt.1 h1)]
    by_cases h2 : (m i).toNat < 192
    · simp only [h2, decide_true, if_true, and_0f, Nat.add_comm]
    · simp only [h2, decide_false, Bool.false_eq_true, if_false, clear_20 _ (Nat.not_lt.1 h2)]
      by_cases h3 : (m i).toNat < 224
      · simp only [h3, decide_true, if_true, medLen]
      · simp only [h3, decide_false, Bool.false_eq_true, if_false, clear_10 _ (Nat.not_lt.1 h3)]
        by_cases h4 : (m i).toNat < 240
        · simp only [h4, decide_true, if_true, longLen]
        · simp [h4]

theorem announcedLen_pos (m : Nat → Byte) (i : Nat) : 1 ≤ announcedLen m i := by
  unfold announcedLen
  dsimp only
  repeat' split
  all_goals omega

theorem keepToken_eq (m : Nat → Byte) (i n : Nat) (hn : 1 ≤ n) :
    keepToken (memSlice m i n) = !isEmptyAtom m (i, n) := by
  unfold keepToken isEmptyAtom memSlice
  by_cases h : n = 1
  · subst h
    rw [Bool.eq_iff_iff]
    simp
  · have h1 : (n != 1) = true := by simpa using h
    have h2 : (n == 1) = false := by simpa using h
    simp only [List.length_map, List.length_range, h1, h2, Bool.true_or, Bool.false_and, Bool.not_false]

theorem exists_tiles (m : Nat → Byte) (e i : Nat) :
    ∃ spans, Tiles m e i spans ∧ spans.length ≤ e - i := by
  generalize hn : e - i = n
  induction n using Nat.strongRecOn generalizing i with
  | ind n ih =>
    by_cases h : i < e
    · have hp := announcedLen_pos m i
      obtain ⟨sp, h1, h2⟩ := ih (e - (i + announcedLen m i)) (by omega) _ rfl
      exact ⟨_, .cons h h1, by simp; omega⟩
    · exact ⟨[], .nil (by omega), by simp⟩

/-- The token loop yields the visible tokens of the tiling, for any sufficient iteration bound. -/
theorem scan_tiles {m : Nat → Byte} {e i : Nat} {spans : List (Nat × Nat)} (h : Tiles m e i spans)
    (fuel : Nat) (hf : spans.length ≤ fuel) (acc : List Bytes) :
    scan m e fuel i acc = acc ++ visible m spans := by
  induction h generalizing fuel acc with
  | @nil i h =>
    cases fuel with
    | zero => simp [scan, visible]
    | succ f => simp [scan, visible, Nat.not_lt.2 h]
  | @cons i rest h _ ih =>
    cases fuel with
    | zero => simp at hf
    | succ f =>
      simp only [scan, h, if_true, tokenLen_eq]
      rw [ih f (by simpa using hf), keepToken_eq _ _ _ (announcedLen_pos m i)]
      by_cases hk : isEmptyAtom m (i, announcedLen m i)
      · simp [visible, hk]
      · simp [visible, hk, List.append_assoc]
        rfl

theorem Tiles.unique {m : Nat → Byte} {e i : Nat} {s s' : List (Nat × Nat)}
    (h : Tiles m e i s) (h' : Tiles m e i s') : s = s' := by
  induction h generalizing s' with
  | nil h => cases h' with
    | nil => rfl
    | cons h2 _ => omega
  | cons h _ ih => cases h' with
    | nil h2 => omega
    | cons h2 t => rw [ih t]

/-- The iteration bound used by `commit` never cuts the loop short: any larger bound gives the same. -/
theorem scan_fuel (m : Nat → Byte) (e i : Nat) (f g : Nat) (hf : e - i ≤ f) (hg : e - i ≤ g)
    (acc : List Bytes) : scan m e f i acc = scan m e g i acc := by
  obtain ⟨sp, h1, h2⟩ := exists_tiles m e i
  rw [scan_tiles h1 f (by omega), scan_tiles h1 g (by omega)]

/-- Byte-assembled 32-bit value equals the positional value. -/
theorem be32_toNat (b : Bytes) (i : Nat) (h : i + 4 ≤ b.length) :
    (Resp.be32 b i).toNat = beVal (slice b i 4) := by
  have e0 : slice b i 4 = [b.getD i 0, b.getD (i+1) 0, b.getD (i+2) 0, b.getD (i+3) 0] := by
    apply List.ext_getElem?
    intro j
    rw [getElem?_slice]
    rcases j with _ | _ | _ | _ | j
    · simp [List.getElem?_eq_getElem (show i < b.length by omega)]
    · simp [List.getElem?_eq_getElem (show i + 1 < b.length by omega)]
    · simp [List.getElem?_eq_getElem (show i + 2 < b.length by omega)]
    · simp [List.getElem?_eq_getElem (show i + 3 < b.length by omega)]
    · rw [if_neg (by omega)]; simp
  rw [e0]
  unfold Resp.be32
  generalize b.getD i 0 = w
  generalize b.getD (i + 1) 0 = x
  generalize b.getD (i + 2) 0 = y
  generalize b.getD (i + 3) 0 = z
  have hw := w.isLt
  have hx := x.isLt
  have hy := y.isLt
  have hz := z.isLt
  have sw : (w.setWidth 32 <<< 24).toNat = w.toNat * 16777216 := by
    rw [BitVec.toNat_shiftLeft, Nat.shiftLeft_eq]; simp; omega
  have sx : (x.setWidth 32 <<< 16).toNat = x.toNat * 65536 := by
    rw [BitVec.toNat_shiftLeft, Nat.shiftLeft_eq]; simp; omega
  have sy : (y.setWidth 32 <<< 8).toNat = y.toNat * 256 := by
    rw [BitVec.toNat_shiftLeft, Nat.shiftLeft_eq]; simp; omega
  have sz : (z.setWidth 32).toNat = z.toNat := by simp; omega
  have o1 := or_eq_add_of_disjoint (a := w.setWidth 32 <<< 24) (b := x.setWidth 32 <<< 16) 24
    (by rw [sw]; omega) (by rw [sx]; omega)
  have o2 := or_eq_add_of_disjoint (a := w.setWidth 32 <<< 24 ||| x.setWidth 32 <<< 16)
    (b := y.setWidth 32 <<< 8) 16 (by rw [o1, sw, sx]; omega) (by rw [sy]; omega)
  have o3 := or_eq_add_of_disjoint
    (a := w.setWidth 32 <<< 24 ||| x.setWidth 32 <<< 16 ||| y.setWidth 32 <<< 8)
    (b := z.setWidth 32) 8 (by rw [o2, o1, sw, sx, sy]; omega) (by rw [sz]; omega)
  rw [o3, o2, o1, sw, sx, sy, sz]
  simp [beVal]
  omega

/-- A memory holding a token's encoding announces exactly that token. -/
theorem announcedLen_encode (m : Nat → Byte) (i : Nat) (t : Token) (hw : t.WF)
    (hm : HoldsAt m i t.encode) : announcedLen m i = t.encode.length := by
  have h0 : ∀ (b : Byte) (bs : Bytes), t.encode = b :: bs → m i = b := by
    intro b bs h
    have := hm 0 (by rw [h]; simp)
    simpa [h] using this
  unfold announcedLen
  cases t with
  | tiny s v =>
    have hb := h0 _ _ rfl
    simp only [Token.WF] at hw
    have : (m i).toNat < 128 := by
      rw [hb]; simp [Token.flag]; split <;> omega
    simp [this, Token.encode]
  | short b s d =>
    have hb := h0 _ _ rfl
    simp only [Token.WF] at hw
    have hv : (m i).toNat = 128 + Token.flag b 32 + Token.flag s 16 + d.length := by
      rw [hb]; simp [Token.flag]; split <;> split <;> omega
    have h1 : ¬ (m i).toNat < 128 := by omega
    have h2 : (m i).toNat < 192 := by
      rw [hv]; simp only [Token.flag]; split <;> split <;> omega
    have h3 : (m i).toNat % 16 = d.length := by
      rw [hv]; simp only [Token.flag]; split <;> split <;> omega
    simp [h1, h2, h3, Token.encode, Nat.add_comm]
  | medium b s d =>
    have hb := h0 _ _ rfl
    have hc := hm 1 (by simp [Token.encode])
    simp only [Token.WF] at hw
    have hv : (m i).toNat = 192 + Token.flag b 16 + Token.flag s 8 + d.length / 256 := by
      rw [hb]; simp [Token.flag]; split <;> split <;> omega
    have hv1 : (m (i + 1)).toNat = d.length % 256 := by
      rw [hc]; simp [Token.encode]
    have h1 : ¬ (m i).toNat < 128 := by omega
    have h2 : ¬ (m i).toNat < 192 := by omega
    have h3 : (m i).toNat < 224 := by
      rw [hv]; simp only [Token.flag]; split <;> split <;> omega
    have h4 : (m i).toNat % 8 = d.length / 256 := by
      rw [hv]; simp only [Token.flag]; split <;> split <;> omega
    simp only [h1, h2, h3, if_true, if_false, h4, hv1, Token.encode, List.length_cons]
    omega
  | long b s d =>
    have hb := h0 _ _ rfl
    have e1 := hm 1 (by simp [Token.encode]; omega)
    have e2 := hm 2 (by simp [Token.encode]; omega)
    have e3 := hm 3 (by simp [Token.encode]; omega)
    simp only [Token.WF] at hw
    have hv : (m i).toNat = 224 + Token.flag b 2 + Token.flag s 1 := by
      rw [hb]; simp [Token.flag]; split <;> split <;> omega
    have v1 : (m (i + 1)).toNat = d.length / 65536 := by
      rw [e1]; simp [Token.encode, beBytes]; omega
    have v2 : (m (i + 2)).toNat = d.length / 256 % 256 := by
      rw [e2]; simp [Token.encode, beBytes]
    have v3 : (m (i + 3)).toNat = d.length % 256 := by
      rw [e3]; simp [Token.encode, beBytes]
    have h1 : ¬ (m i).toNat < 128 := by omega
    have h2 : ¬ (m i).toNat < 192 := by omega
    have h3 : ¬ (m i).toNat < 224 := by omega
    have h4 : (m i).toNat < 240 := by
      rw [hv]; simp only [Token.flag]; split <;> split <;> omega
    simp only [h1, h2, h3, h4, if_true, if_false, v1, v2, v3, Token.encode, List.length_cons,
      List.length_append, beBytes_length]
    omega
  | control c =>
    have hb := h0 _ _ rfl
    simp only [Token.WF] at hw
    have hv : (m i).toNat = 240 + c := by rw [hb]; simp; omega
    have h1 : ¬ (m i).toNat < 128 := by omega
    have h2 : ¬ (m i).toNat < 192 := by omega
    have h3 : ¬ (m i).toNat < 224 := by omega
    have h4 : ¬ (m i).toNat < 240 := by omega
    simp [h1, h2, h3, h4, Token.encode]

theorem bytesAt_of_holds (m : Nat → Byte) (i : Nat) (bs : Bytes) (h : HoldsAt m i bs) :
    bytesAt m (i, bs.length) = bs := by
  apply List.ext_getElem
  · simp [bytesAt]
  · intro k h1 h2
    simp [bytesAt, h k h2]

theorem HoldsAt.append {m : Nat → Byte} {i : Nat} {a b : Bytes} (h : HoldsAt m i (a ++ b)) :
    HoldsAt m i a ∧ HoldsAt m (i + a.length) b := by
  constructor
  · intro k hk
    rw [h k (by simp; omega)]
    simp [hk]
  · intro k hk
    have := h (a.length + k) (by simp; omega)
    rw [Nat.add_assoc, this]
    simp

theorem encode_length_pos (t : Token) : 1 ≤ t.encode.length := by
  cases t <;> simp [Token.encode]

theorem isEmptyAtom_encode (m : Nat → Byte) (i : Nat) (t : Token) (hw : t.WF)
    (hm : HoldsAt m i t.encode) :
    isEmptyAtom m (i, t.encode.length) = decide (t = Token.emptyAtom) := by
  have h0 : ∀ (b : Byte) (bs : Bytes), t.encode = b :: bs → m i = b := by
    intro b bs h
    have := hm 0 (by rw [h]; simp)
    simpa [h] using this
  have key : ∀ v : Nat, v < 256 → (BitVec.ofNat 8 v == (0xff : Byte)) = decide (v = 255) := by
    intro v hv
    rw [Bool.eq_iff_iff]
    simp only [beq_iff_eq, decide_eq_true_eq]
    constructor
    · intro h
      have := congrArg BitVec.toNat h
      simp at this
      omega
    · intro h; subst h; rfl
  unfold isEmptyAtom
  cases t with
  | tiny s v =>
    have hb := h0 _ _ rfl
    simp only [Token.WF] at hw
    rw [hb, key _ (by simp only [Token.flag]; split <;> omega)]
    have : ¬ (Token.flag s 64 + v = 255) := by simp only [Token.flag]; split <;> omega
    simp [Token.emptyAtom, this]
  | short b s d =>
    have hb := h0 _ _ rfl
    simp only [Token.WF] at hw
    rw [hb, key _ (by simp only [Token.flag]; split <;> split <;> omega)]
    have : ¬ (128 + Token.flag b 32 + Token.flag s 16 + d.length = 255) := by
      simp only [Token.flag]; split <;> split <;> omega
    simp [Token.emptyAtom, this]
  | medium b s d =>
    simp [Token.encode, Token.emptyAtom]
  | long b s d =>
    simp [Token.encode, Token.emptyAtom]
  | control c =>
    have hb := h0 _ _ rfl
    simp only [Token.WF] at hw
    rw [hb, key _ (by omega)]
    simp only [Token.encode, Token.emptyAtom, List.length_singleton, Token.control.injEq, beq_self_eq_true,
      Bool.true_and, decide_eq_decide]
    omega

/-- A memory holding an encoded token list is tiled by it. -/
theorem tiles_encodeAll (m : Nat → Byte) (ts : List Token) (i e : Nat) (hw : ∀ t ∈ ts, t.WF)
    (hm : HoldsAt m i (encodeAll ts)) (he : i + (encodeAll ts).length = e) :
    ∃ spans, Tiles m e i spans ∧
      visible m spans = (ts.filter (fun t => t ≠ Token.emptyAtom)).map Token.encode := by
  induction ts generalizing i with
  | nil => exact ⟨[], .nil (by simp [encodeAll] at he; omega), rfl⟩
  | cons t ts ih =>
    simp only [encodeAll, List.flatMap_cons] at hm he
    obtain ⟨h1, h2⟩ := HoldsAt.append hm
    have hl := announcedLen_encode m i t (hw t (List.mem_cons_self ..)) h1
    have hp := encode_length_pos t
    obtain ⟨sp, hs, hv⟩ := ih (i + t.encode.length) (fun t' ht' => hw t' (List.mem_cons_of_mem _ ht')) h2
      (by rw [← he]; simp [encodeAll]; omega)
    refine ⟨(i, announcedLen m i) :: sp, .cons (by simp at he; omega) (by rw [hl]; exact hs), ?_⟩
    have hem := isEmptyAtom_encode m i t (hw t (List.mem_cons_self ..)) h1
    unfold visible at hv ⊢
    rw [hl]
    by_cases ht : t = Token.emptyAtom
    · simp only [ht, decide_true] at hem
      rw [ht] at hl ⊢
      simp only [List.filter_cons, hem]
      simp [hv]
    · simp only [ht, decide_false] at hem
      simp only [List.filter_cons, hem]
      simp [hv, ht, bytesAt_of_holds _ _ _ h1]

end Dparm
