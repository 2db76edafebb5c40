import Verif.Lemmas.Complete
import Verif.Props.Token
import Verif.Props.Response
/-!
# Properties of command construction (C01–C09)
-/
namespace Dparm
open Spec

/-! ## C01: numbers -/

theorem encAdd_eq_tokenOf {o : AddOp} {t : Token} (h : tokenOf o = some t) : encAdd o = t.encode := by
  cases o with
  | tok a =>
    cases a with
    | uid u => simp only [tokenOf, Option.some.injEq] at h; rw [← h]; rfl
    | method m => simp only [tokenOf, Option.some.injEq] at h; rw [← h]; rfl
    | int v =>
      simp only [tokenOf] at h
      split at h
      · next hv =>
        injection h with h; subst h
        simp only [encAdd, Token.encode, Token.flag]
        congr 1
        obtain ⟨n, rfl⟩ : ∃ n : Nat, v = n := ⟨v.toNat, by omega⟩
        simp
      · split at h
        · next hv =>
          injection h with h; subst h
          simp only [encAdd, Token.encode, Token.flag, if_true]
          congr 1
          obtain ⟨n, rfl⟩ : ∃ n : Nat, v = n := ⟨v.toNat, by omega⟩
          have : 64 + (n - 64) = n := by omega
          simp only [Int.toNat_natCast, this]
          simp
        · split at h
          · next hv =>
            injection h with h; subst h
            obtain ⟨n, rfl⟩ : ∃ n : Nat, v = n := ⟨v.toNat, by omega⟩
            have : 240 + (n - 240) = n := by omega
            simp only [encAdd, Token.encode, Int.toNat_natCast, this]
            simp
          · simp at h
  | raw d => simp [tokenOf] at h
  | num v => simp only [tokenOf, Option.some.injEq] at h; rw [← h]; rfl
  | str text l =>
    cases l with
    | some l => simp [tokenOf] at h
    | none =>
      simp only [tokenOf] at h
      split at h
      · next hv =>
        injection h with h; subst h
        have h0 : text.length ≠ 0 := by omega
        simp only [encAdd, encAdd.encStr, Token.bytes, h0, if_false]
        by_cases h1 : text.length < 16
        · simp [h1, Token.encode, Token.flag]
        · simp [h1, hv.2, Token.encode, Token.flag]
      · simp at h

theorem tokenOf_wf {o : AddOp} {t : Token} (h : tokenOf o = some t) : t.WF := by
  cases o with
  | tok a =>
    cases a with
    | uid u => simp only [tokenOf, Option.some.injEq] at h; rw [← h]; simp [Token.WF, u.len]
    | method u => simp only [tokenOf, Option.some.injEq] at h; rw [← h]; simp [Token.WF, u.len]
    | int v =>
      simp only [tokenOf] at h
      split at h
      · injection h with h; subst h; simp only [Token.WF]; omega
      · split at h
        · injection h with h; subst h; simp only [Token.WF]; omega
        · split at h
          · injection h with h; subst h; simp only [Token.WF]; omega
          · simp at h
  | raw d => simp [tokenOf] at h
  | num v =>
    simp only [tokenOf, Option.some.injEq] at h; subst h
    unfold Token.uint
    split
    · simpa [Token.WF] using ‹_›
    · split
      · simp [Token.WF]
      · split
        · simp [Token.WF]
        · split <;> simp [Token.WF]
  | str text l =>
    cases l with
    | some l => simp [tokenOf] at h
    | none =>
      simp only [tokenOf] at h
      split at h
      · next hv =>
        injection h with h; subst h
        unfold Token.bytes
        split
        · simpa [Token.WF] using ‹_›
        · simpa [Token.WF] using hv.2
      · simp at h

/-- C01, the atom: for every value, `AddNumberToken` appends one byte below 64 and otherwise
`81`/`82`/`84`/`88` with the shortest of 1, 2, 4, 8 big-endian bytes that holds the value. -/
theorem addNumber_atom {c : ABuf} {content : Bytes} (h : Win c content) (v : BitVec 64)
    (hfit : content.length + 9 ≤ cmdSize) :
    ∃ c', Cmd.addNumber c v = .ret (c', none) ∧ Frame c c' ∧
      Win c' (content ++
        if v.toNat < 64 then [BitVec.ofNat 8 v.toNat]
        else if v.toNat < 2 ^ 8 then 0x81 :: beBytes 1 v.toNat
        else if v.toNat < 2 ^ 16 then 0x82 :: beBytes 2 v.toNat
        else if v.toNat < 2 ^ 32 then 0x84 :: beBytes 4 v.toNat
        else 0x88 :: beBytes 8 v.toNat) := by
  have key : encAdd (.num v) = (if v.toNat < 64 then [BitVec.ofNat 8 v.toNat]
        else if v.toNat < 2 ^ 8 then 0x81 :: beBytes 1 v.toNat
        else if v.toNat < 2 ^ 16 then 0x82 :: beBytes 2 v.toNat
        else if v.toNat < 2 ^ 32 then 0x84 :: beBytes 4 v.toNat
        else 0x88 :: beBytes 8 v.toNat) := by
    by_cases h0 : v.toNat < 64
    · simp [encAdd, Token.uint, h0, Token.encode, Token.flag]
    · rw [encAdd_num_big v h0, if_neg h0]
  obtain ⟨c', e, w, f⟩ := add_win h (.num v)
  have hlen : (encAdd (.num v)).length ≤ 9 := by
    rw [key]
    split
    · simp
    · split
      · simp
      · split
        · simp
        · split <;> simp
  rw [List.take_of_length_le (by rw [List.length_append]; omega)] at w
  refine ⟨c', ?_, f, by rw [← key]; exact w⟩
  simp only [Cmd.add] at e
  rw [e]
  have h1 : headLen (.num v) ≤ 1 := by simp only [headLen]; split <;> omega
  have h2 : addErr content.length (.num v) = none := by
    unfold addErr
    rw [if_neg]
    rintro (h | ⟨_, h⟩)
    · simp at h
    · omega
  rw [h2]

/-- C01: `GetUint64` on the atom `AddNumberToken v` produced returns `v`, for every `v`. -/
theorem getUint64_addNumber (v : BitVec 64) : Tok.getUint64 (encAdd (.num v)) = .ok v := by
  have hv : BitVec.ofNat 64 v.toNat = v := by simp
  by_cases h0 : v.toNat < 64
  · have h8 : (BitVec.ofNat 8 v.toNat).toNat = v.toNat := by simp; omega
    have : encAdd (.num v) = [BitVec.ofNat 8 v.toNat] := by
      simp [encAdd, Token.uint, h0, Token.encode, Token.flag]
    rw [this, getUint64_exact, h8, if_pos h0, hv]
  · rw [encAdd_num_big v h0]
    split
    · next h1 =>
      rw [getUint64_exact, if_neg (by decide), if_pos (by decide), beVal_beBytes,
        Nat.mod_eq_of_lt (by omega), hv]
    · split
      · next h1 =>
        rw [getUint64_exact, if_neg (by decide), if_pos (by decide), beVal_beBytes,
          Nat.mod_eq_of_lt (by omega), hv]
      · split
        · next h1 =>
          rw [getUint64_exact, if_neg (by decide), if_pos (by decide), beVal_beBytes,
            Nat.mod_eq_of_lt (by omega), hv]
        · next h1 =>
          rw [getUint64_exact, if_neg (by decide), if_pos (by decide), beVal_beBytes,
            Nat.mod_eq_of_lt (by have := v.isLt; omega), hv]

theorem filter_encode_mid (pre post : List Token) (t : Token) (ht : t ≠ Token.emptyAtom) :
    ((pre ++ t :: post).filter (fun t => t ≠ Token.emptyAtom)).map Token.encode
      = (pre.filter (fun t => t ≠ Token.emptyAtom)).map Token.encode ++ t.encode ::
        (post.filter (fun t => t ≠ Token.emptyAtom)).map Token.encode := by
  simp [List.filter_append, ht]

/-- C01: the round trip through a response. Whenever a response carries the atom `AddNumberToken v`
produces, among any other tokens, the parser delivers exactly one token for it, in its place, and
`GetUint64` returns `v`. -/
theorem number_roundtrip (r : Resp) (after : Nat → Byte) (v : BitVec 64) (pre post : List Token)
    (hw : ∀ t ∈ pre ++ Token.uint v.toNat :: post, t.WF)
    (hc : Carries r.buf (pre ++ Token.uint v.toNat :: post)) :
    (r.commit after).2 = none ∧
    ∃ t, (r.commit after).1.tokens
        = (pre.filter (fun t => t ≠ Token.emptyAtom)).map Token.encode ++ t ::
          (post.filter (fun t => t ≠ Token.emptyAtom)).map Token.encode ∧
      t = encAdd (.num v) ∧ Tok.getUint64 t = .ok v := by
  obtain ⟨h1, h2⟩ := commit_of_encoded r after _ hw hc
  refine ⟨h1, encAdd (.num v), ?_, rfl, getUint64_addNumber v⟩
  rw [h2, filter_encode_mid]
  · rfl
  · unfold Token.uint Token.emptyAtom
    split
    · simp
    · split
      · simp
      · split
        · simp
        · split <;> simp

/-! ## C02, C03: strings -/

theorem bytes_ne_empty (d : Bytes) : Token.bytes d ≠ Token.emptyAtom := by
  unfold Token.bytes Token.emptyAtom; split <;> simp

theorem clearA : ∀ n : Fin 16, Tok.clear (BitVec.ofNat 8 (128 + 32 + 0 + n)) 0x80 = false ∧
    Tok.clear (BitVec.ofNat 8 (128 + 32 + 0 + n)) 0x40 = true ∧
    Tok.clear (BitVec.ofNat 8 (128 + 32 + 0 + n)) 0x20 = false := by decide +kernel
theorem clearD : ∀ n : Fin 8, Tok.clear (BitVec.ofNat 8 (192 + 16 + 0 + n)) 0x80 = false ∧
    Tok.clear (BitVec.ofNat 8 (192 + 16 + 0 + n)) 0x40 = false ∧
    Tok.clear (BitVec.ofNat 8 (192 + 16 + 0 + n)) 0x20 = true ∧
    Tok.clear (BitVec.ofNat 8 (192 + 16 + 0 + n)) 0x10 = false := by decide +kernel

/-- C02: both accessors return the original text of the atom `AddStringToken` makes of it. -/
theorem getString_addString (text : Bytes) (h1 : 1 ≤ text.length) (h2 : text.length < 2048) :
    Tok.getString (encAdd (.str text none)) = .ok text ∧
    Tok.getBytes (encAdd (.str text none)) = .ok text := by
  have h0 : text.length ≠ 0 := by omega
  have he : encAdd (.str text none) = (Token.bytes text).encode :=
    encAdd_eq_tokenOf (by simp only [tokenOf]; rw [if_pos ⟨h1, h2⟩])
  rw [he]
  unfold Token.bytes
  by_cases h3 : text.length < 16
  · obtain ⟨a, b, c⟩ := clearA ⟨text.length, h3⟩
    simp only at a b c
    simp only [h3, if_true, Token.encode, Token.flag, Bool.false_eq_true, if_false, Tok.getString,
      Tok.getBytes, a, b, Tok.sliceFrom]
    simp
  · obtain ⟨a, b, c, d⟩ := clearD ⟨text.length / 256, by omega⟩
    simp only at a b c d
    simp only [h3, if_true, Token.encode, Token.flag, Bool.false_eq_true, if_false, Tok.getString,
      Tok.getBytes, a, b, c, Tok.sliceFrom]
    simp

/-- C02: what `AddStringToken(text)` appends: short form below 16 bytes, medium form from 16, the header
announcing the text's length. -/
theorem addString_atom {c : ABuf} {content : Bytes} (h : Win c content) (text : Bytes)
    (h1 : 1 ≤ text.length) (h2 : text.length < 2048)
    (hfit : content.length + text.length + 2 ≤ cmdSize) :
    ∃ c', Cmd.addString c text none = .ret (c', none) ∧ Frame c c' ∧
      Win c' (content ++
        ((if text.length < 16 then [BitVec.ofNat 8 (0xa0 + text.length)]
          else [BitVec.ofNat 8 (0xd0 + text.length / 256), BitVec.ofNat 8 (text.length % 256)])
          ++ text)) := by
  have h0 : text.length ≠ 0 := by omega
  have he : encAdd (.str text none) =
      ((if text.length < 16 then [BitVec.ofNat 8 (0xa0 + text.length)]
          else [BitVec.ofNat 8 (0xd0 + text.length / 256), BitVec.ofNat 8 (text.length % 256)])
          ++ text) := by
    simp only [encAdd, encAdd.encStr, h0, if_false]
    by_cases h3 : text.length < 16
    · simp [h3]
    · simp [h3, h2]
  have hl : (encAdd (.str text none)).length ≤ text.length + 2 := by
    rw [he]; split <;> simp
  obtain ⟨c', e, w, f⟩ := add_win h (.str text none)
  rw [List.take_of_length_le (by rw [List.length_append]; omega), he] at w
  refine ⟨c', ?_, f, w⟩
  simp only [Cmd.add] at e
  rw [e]
  have : addErr content.length (.str text none) = none := by
    unfold addErr
    rw [if_neg]
    rintro (h | ⟨_, h⟩)
    · simp at h
    · simp only [headLen] at h; omega
  rw [this]

/-- C02: the round trip through a response, among any other tokens. -/
theorem string_roundtrip (r : Resp) (after : Nat → Byte) (text : Bytes)
    (h1 : 1 ≤ text.length) (h2 : text.length < 2048) (pre post : List Token)
    (hw : ∀ t ∈ pre ++ Token.bytes text :: post, t.WF)
    (hc : Carries r.buf (pre ++ Token.bytes text :: post)) :
    (r.commit after).2 = none ∧
    ∃ t, (r.commit after).1.tokens
        = (pre.filter (fun t => t ≠ Token.emptyAtom)).map Token.encode ++ t ::
          (post.filter (fun t => t ≠ Token.emptyAtom)).map Token.encode ∧
      t = encAdd (.str text none) ∧ Tok.getString t = .ok text ∧ Tok.getBytes t = .ok text := by
  obtain ⟨e1, e2⟩ := commit_of_encoded r after _ hw hc
  have he : encAdd (.str text none) = (Token.bytes text).encode :=
    encAdd_eq_tokenOf (by simp only [tokenOf]; rw [if_pos ⟨h1, h2⟩])
  refine ⟨e1, encAdd (.str text none), ?_, rfl, getString_addString text h1 h2⟩
  rw [e2, filter_encode_mid _ _ _ (bytes_ne_empty text), he]

/-- C03, empty string: `A1 00` is appended, and it reads back as a one-byte string holding NUL. -/
theorem addString_empty {c : ABuf} {content : Bytes} (h : Win c content)
    (hfit : content.length + 2 ≤ cmdSize) :
    (∃ c', Cmd.addString c [] none = .ret (c', none) ∧ Win c' (content ++ [0xa1, 0x00])) ∧
    Tok.getString [0xa1, 0x00] = .ok [0x00] ∧ Tok.getBytes [0xa1, 0x00] = .ok [0x00] := by
  refine ⟨?_, by decide, by decide⟩
  obtain ⟨c', e, w, f⟩ := add_win h (.str [] none)
  have he : encAdd (.str [] none) = [0xa1, 0x00] := rfl
  rw [he, List.take_of_length_le (by simp; omega)] at w
  refine ⟨c', ?_, w⟩
  simp only [Cmd.add] at e
  rw [e]
  have : addErr content.length (.str [] none) = none := by
    unfold addErr
    rw [if_neg]
    rintro (h | ⟨_, h⟩)
    · simp at h
    · simp only [headLen] at h; omega
  rw [this]

/-- C03, long strings: from 2048 bytes on (or for an explicit length of 2048 or more) the call changes
nothing at all and still returns nil. No hypothesis on the command. -/
theorem addString_too_long (c : ABuf) (text : Bytes) :
    (2048 ≤ text.length → Cmd.addString c text none = .ret (c, none)) ∧
    (∀ l : Int, 2048 ≤ l → Cmd.addString c text (some l) = .ret (c, none)) := by
  constructor
  · intro h
    have : encAdd (.str text none) = [] := by
      simp only [encAdd, encAdd.encStr]
      rw [if_neg (by omega), if_neg (by omega), if_neg (by omega)]
    rw [addString_eq, if_pos this]
  · intro l h
    have : encAdd (.str text (some l)) = [] := by
      simp only [encAdd, encAdd.encStr]
      rw [if_neg (show ¬ l < 0 by omega), if_neg (by omega), if_neg (by omega), if_neg (by omega)]
    rw [addString_eq, if_pos this]

/-- C03, explicit length: the header announces `l`, the payload is the whole text whatever its length. -/
theorem addString_explicit {c : ABuf} {content : Bytes} (h : Win c content) (text : Bytes) (l : Nat)
    (h1 : 1 ≤ l) (h2 : l < 2048) (hfit : content.length + text.length + 2 ≤ cmdSize) :
    ∃ c', Cmd.addString c text (some (l : Int)) = .ret (c', none) ∧
      Win c' (content ++
        ((if l < 16 then [BitVec.ofNat 8 (0xa0 + l)]
          else [BitVec.ofNat 8 (0xd0 + l / 256), BitVec.ofNat 8 (l % 256)]) ++ text)) := by
  have h0 : l ≠ 0 := by omega
  have hn : ¬ ((l : Int) < 0) := by omega
  have he : encAdd (.str text (some (l : Int))) =
      ((if l < 16 then [BitVec.ofNat 8 (0xa0 + l)]
          else [BitVec.ofNat 8 (0xd0 + l / 256), BitVec.ofNat 8 (l % 256)]) ++ text) := by
    simp only [encAdd, encAdd.encStr, hn, if_false, Int.toNat_natCast, h0]
    by_cases h3 : l < 16
    · simp [h3]
    · simp [h3, h2]
  have hl : (encAdd (.str text (some (l : Int)))).length ≤ text.length + 2 := by
    rw [he]; split <;> simp
  obtain ⟨c', e, w, f⟩ := add_win h (.str text (some (l : Int)))
  rw [List.take_of_length_le (by rw [List.length_append]; omega), he] at w
  refine ⟨c', ?_, w⟩
  simp only [Cmd.add] at e
  rw [e]
  have : addErr content.length (.str text (some (l : Int))) = none := by
    unfold addErr
    rw [if_neg]
    rintro (h | ⟨_, h⟩)
    · simp at h
    · simp only [headLen] at h; omega
  rw [this]

/-- C03: consequently a five-byte text announced as three bytes reads back as three tokens. -/
example : encAdd (.str [0x68, 0x65, 0x6c, 0x6c, 0x6f] (some 3)) = [0xa3, 0x68, 0x65, 0x6c, 0x6c, 0x6f] := by
  decide

/-! ## C04, C05: the buffer -/

/-- `NewTcgCommand`, `Init`, then a sequence of `Add...` calls; returns the collected errors. -/
def buildCommand (base : Nat) (inv : InvokingArg) (m : MethodArg) (ops : List AddOp) :
    P (ABuf × Option GoErr × List (Option GoErr)) :=
  match Cmd.init (newTcgCommand base) inv m with
  | .panic => .panic
  | .ret (c, e) => match Cmd.addAll c ops with
    | .panic => .panic
    | .ret (c', es) => .ret (c', e, es)

/-- C05, content: whatever is added, in any amount, the command window holds the zero header, `Init`'s
tokens and the concatenated encodings, cut at 61440 bytes and followed by zeros; the write position is at
the cut; the errors are exactly those of `addErrs`; nothing outside the window changed; no panic. -/
theorem build_content (base : Nat) (inv : InvokingArg) (m : MethodArg) (ops : List AddOp)
    (hinv : ∀ x, inv ≠ .method x) :
    let full := zeros 56 ++ encInit inv m ++ encAdds ops
    ∃ c, buildCommand base inv m ops
        = .ret (c, none, addErrs (min cmdSize (56 + (encInit inv m).length)) ops) ∧
      c.wpos = min cmdSize full.length ∧
      c.buf = full.take cmdSize ++ zeros (cmdSize - full.length) ∧
      Frame (newTcgCommand base) c := by
  intro full
  have w0 := newTcgCommand_win base
  obtain ⟨c1, e1, w1, f1⟩ := init_win w0.limit w0.fits inv m hinv
  obtain ⟨c2, e2, w2, f2⟩ := addAll_win w1 ops
  have hl : (List.take cmdSize (zeros headerSize ++ encInit inv m)).length
      = min cmdSize (56 + (encInit inv m).length) := by
    rw [List.length_take, List.length_append, zeros_length]
  rw [take_take_append] at w2
  refine ⟨c2, ?_, ?_, ?_, f1.trans f2⟩
  · simp only [buildCommand, e1, e2, hl]
  · rw [w2.wpos, List.length_take]
  · rw [w2.window, List.length_take]
    congr 2
    show cmdSize - min cmdSize full.length = _
    omega

theorem addErrs_none (ops : List AddOp) (pos : Nat) (hr : ∀ o ∈ ops, o ≠ .raw [])
    (hfit : pos + (encAdds ops).length ≤ cmdSize) : addErrs pos ops = ops.map (fun _ => none) := by
  induction ops generalizing pos with
  | nil => rfl
  | cons o os ih =>
    have hl : (encAdds (o :: os)).length = (encAdd o).length + (encAdds os).length := by
      simp [encAdds]
    rw [hl] at hfit
    simp only [addErrs, List.map_cons]
    rw [Nat.min_eq_right (by omega), ih _ (fun o h => hr o (List.mem_cons_of_mem _ h)) (by omega)]
    congr 1
    unfold addErr
    rw [if_neg]
    rintro (h | ⟨hne, h⟩)
    · exact hr o (List.mem_cons_self ..) h
    · have hp : headLen o < (encAdd o).length := by
        cases o with
        | tok a => cases a <;> simp [headLen, encAdd, Token.encode]; exact (by rename_i u; rw [u.len]; omega)
        | raw d => simpa [headLen] using List.length_pos_iff.2 hne
        | str t l => simpa [headLen] using List.length_pos_iff.2 hne
        | num v =>
          simp only [headLen]
          by_cases h0 : v.toNat < 64
          · simp [h0, encAdd_num_small v h0]
          · rw [encAdd_num_big v h0, if_neg h0]
            split
            · simp
            · split
              · simp
              · split <;> simp
      omega

/-- C04: as long as everything fits (and no empty raw token is added, which reports EOF), all calls
return nil and the command holds a zero header of 56 bytes followed by exactly the encodings in call
order. -/
theorem build_exact (base : Nat) (inv : InvokingArg) (m : MethodArg) (ops : List AddOp)
    (hinv : ∀ x, inv ≠ .method x) (hr : ∀ o ∈ ops, o ≠ .raw [])
    (hfit : 56 + (encInit inv m).length + (encAdds ops).length ≤ cmdSize) :
    ∃ c, buildCommand base inv m ops = .ret (c, none, ops.map (fun _ => none)) ∧
      Win c (zeros 56 ++ encInit inv m ++ encAdds ops) ∧ Frame (newTcgCommand base) c := by
  have w0 := newTcgCommand_win base
  obtain ⟨c1, e1, w1, f1⟩ := init_win w0.limit w0.fits inv m hinv
  have hl1 : (zeros headerSize ++ encInit inv m).length = 56 + (encInit inv m).length := by simp
  rw [List.take_of_length_le (by omega)] at w1
  obtain ⟨c2, e2, w2, f2⟩ := addAll_win w1 ops
  rw [List.take_of_length_le (by rw [List.length_append]; omega)] at w2
  refine ⟨c2, ?_, w2, f1.trans f2⟩
  simp only [buildCommand, e1, e2]
  rw [addErrs_none ops _ hr (by omega)]

/-- C04, the exception: adding an empty raw token reports EOF and changes nothing. -/
theorem addRaw_empty {c : ABuf} {content : Bytes} (h : Win c content) :
    Cmd.addRaw c [] = .ret (c, some .eof) := by
  have hw := h.wpos; have hl := h.limit; have hle := h.le
  simp only [Cmd.addRaw, Cmd.write, ABuf.write, List.length_nil, Nat.min_zero]
  rw [if_neg (by omega)]
  simp

example : ∃ c, buildCommand 4096 (.uid ADMINSP_UID) (.method M_GET)
    [.tok (.int 0xf0), .num 300, .str [0x41, 0x42] none, .tok (.int 0xf1)]
      = .ret (c, none, [none, none, none, none]) ∧
    Win c (zeros 56 ++ (0xf8 :: 0xa8 :: ADMINSP_UID.bytes ++ 0xa8 :: M_GET.bytes)
      ++ [0xf0, 0x82, 1, 44, 0xa2, 0x41, 0x42, 0xf1]) := by
  obtain ⟨c, h1, h2, _⟩ := build_exact 4096 (.uid ADMINSP_UID) (.method M_GET)
    [.tok (.int 0xf0), .num 300, .str [0x41, 0x42] none, .tok (.int 0xf1)] (by simp) (by simp) (by decide)
  exact ⟨c, h1, h2⟩

/-- Geometry every command keeps. -/
structure Geo (c : ABuf) : Prop where
  limit : c.limit = cmdSize
  fits : c.off + cmdSize ≤ c.mem.length
  wpos : c.wpos ≤ cmdSize

theorem Win.geo {c : ABuf} {x : Bytes} (h : Win c x) : Geo c :=
  ⟨h.limit, h.fits, by rw [h.wpos]; exact h.le⟩

theorem geo_store {c : ABuf} (h : Geo c) (i : Nat) (p : Bytes) (w : Nat) (hp : i + p.length ≤ cmdSize)
    (hw : w ≤ cmdSize) :
    Geo { c with mem := copyAt c.mem (c.off + i) p, wpos := w } ∧
    Frame c { c with mem := copyAt c.mem (c.off + i) p, wpos := w } := by
  have hf := h.fits
  have hl : (copyAt c.mem (c.off + i) p).length = c.mem.length := copyAt_length _ _ _ (by omega)
  refine ⟨⟨h.limit, by simpa [hl] using hf, hw⟩, ⟨rfl, rfl, hl, ?_⟩⟩
  intro j hj
  show (copyAt c.mem (c.off + i) p)[j]? = _
  rw [getElem?_copyAt _ _ _ _ (by omega), if_neg (by omega)]

theorem geo_writeByte {c : ABuf} (h : Geo c) (x : Byte) :
    ∃ c' e, c.writeByte x = (c', e) ∧ Geo c' ∧ Frame c c' ∧
      (e = none ∨ (e = some .eof ∧ c.wpos = cmdSize)) := by
  have hl := h.limit; have hw := h.wpos
  unfold ABuf.writeByte
  by_cases h0 : c.wpos ≥ c.limit
  · rw [if_pos h0]; exact ⟨c, _, rfl, h, Frame.refl c, Or.inr ⟨rfl, by omega⟩⟩
  · rw [if_neg h0]
    have := geo_store h c.wpos [x] (c.wpos + 1) (by simp; omega) (by omega)
    exact ⟨_, _, rfl, this.1, this.2, Or.inl rfl⟩

theorem geo_write {c : ABuf} (h : Geo c) (p : Bytes) :
    ∃ c' e, Cmd.write c p = .ret (c', e) ∧ Geo c' ∧ Frame c c' := by
  have hl := h.limit; have hw := h.wpos
  unfold Cmd.write ABuf.write
  rw [if_neg (by omega)]
  by_cases h0 : min (c.limit - c.wpos) p.length = 0
  · simp only [h0, if_true]; exact ⟨c, _, rfl, h, Frame.refl c⟩
  · simp only [h0, if_false]
    have hlen : (p.take (min (c.limit - c.wpos) p.length)).length = min (c.limit - c.wpos) p.length := by
      rw [List.length_take]; omega
    have := geo_store h c.wpos (p.take (min (c.limit - c.wpos) p.length))
      (c.wpos + min (c.limit - c.wpos) p.length) (by rw [hlen]; omega) (by omega)
    exact ⟨_, _, rfl, this.1, this.2⟩

theorem geo_addString {c : ABuf} (h : Geo c) (t : Bytes) (l : Option Int) :
    ∃ c' e, Cmd.addString c t l = .ret (c', e) ∧ Geo c' ∧ Frame c c' := by
  rw [addString_eq]
  split
  · exact ⟨c, _, rfl, h, Frame.refl c⟩
  · exact geo_write h _

theorem geo_head {c : ABuf} (h : Geo c) (x : Byte) (p : Bytes) :
    ∃ c' e, (match c.writeByte x with
        | (c1, some e) => P.ret (c1, some e)
        | (c1, none) => Cmd.write c1 p) = .ret (c', e) ∧ Geo c' ∧ Frame c c' := by
  obtain ⟨c1, e1, h1, g1, f1, _⟩ := geo_writeByte h x
  rw [h1]
  cases e1 with
  | some e => exact ⟨c1, some e, rfl, g1, f1⟩
  | none =>
    obtain ⟨c2, e2, h2, g2, f2⟩ := geo_write g1 p
    exact ⟨c2, e2, h2, g2, f1.trans f2⟩

theorem geo_add {c : ABuf} (h : Geo c) (o : AddOp) :
    ∃ c' e, Cmd.add c o = .ret (c', e) ∧ Geo c' ∧ Frame c c' := by
  cases o with
  | tok a =>
    cases a with
    | uid u =>
      have := geo_head h 0xa8 u.bytes
      simp only [Cmd.add, Cmd.addToken, Cmd.addRaw]
      rcases hb : c.writeByte 0xa8 with ⟨c1, _ | e⟩ <;> rw [hb] at this <;> exact this
    | method m => exact geo_addString h m.bytes (some m.bytes.length)
    | int v =>
      obtain ⟨c1, e1, h1, g1, f1, _⟩ := geo_writeByte h (BitVec.ofInt 8 v)
      exact ⟨c1, e1, by simp only [Cmd.add, Cmd.addToken, h1], g1, f1⟩
  | raw d => exact geo_write h d
  | str t l => exact geo_addString h t l
  | num v =>
    simp only [Cmd.add, Cmd.addNumber]
    split
    · obtain ⟨c1, e1, h1, g1, f1, _⟩ := geo_writeByte h ((v &&& 0x3f).setWidth 8)
      exact ⟨c1, e1, by rw [h1], g1, f1⟩
    · generalize (if v.toNat < 0x100 then ((0x81 : Byte), 0)
        else if v.toNat < 0x10000 then (0x82, 1)
        else if v.toNat < 0x100000000 then (0x84, 3) else (0x88, 7)) = q
      obtain ⟨hd, k⟩ := q
      have := geo_head h hd (Cmd.numberBytes v k)
      simp only
      rcases hb : c.writeByte hd with ⟨c1, _ | e⟩ <;> rw [hb] at this <;> exact this

theorem geo_reset {c : ABuf} (h : Geo c) : Geo (Cmd.reset c) ∧ Frame c (Cmd.reset c) := by
  obtain ⟨w, f⟩ := reset_win h.limit h.fits
  exact ⟨w.geo, f⟩

theorem geo_initMethod {c : ABuf} (h : Geo c) (m : MethodArg) :
    ∃ c' e, Cmd.init.initMethod c m = .ret (c', e) ∧ Geo c' ∧ Frame c c' := by
  cases m with
  | method m =>
    obtain ⟨c1, e1, h1, g1, f1, _⟩ := geo_writeByte h 0xa8
    obtain ⟨c2, e2, h2, g2, f2⟩ := geo_write g1 m.bytes
    exact ⟨c2, none, by simp only [Cmd.init.initMethod, h1, h2], g2, f1.trans f2⟩
  | buf d =>
    obtain ⟨c2, e2, h2, g2, f2⟩ := geo_write h d
    exact ⟨c2, none, by simp only [Cmd.init.initMethod, Cmd.addRaw, h2], g2, f2⟩

theorem geo_init {c : ABuf} (h : Geo c) (i : InvokingArg) (m : MethodArg) :
    ∃ c' e, Cmd.init c i m = .ret (c', e) ∧ Geo c' ∧ Frame c c' := by
  obtain ⟨g0, f0⟩ := geo_reset h
  obtain ⟨c1, e1, h1, g1, f1, _⟩ := geo_writeByte g0 0xf8
  unfold Cmd.init
  rw [h1]
  cases e1 with
  | some e => exact ⟨c1, _, rfl, g1, f0.trans f1⟩
  | none =>
    cases i with
    | method x => exact ⟨c1, _, rfl, g1, f0.trans f1⟩
    | uid u =>
      obtain ⟨c2, e2, h2, g2, f2⟩ := geo_add g1 (.tok (.uid u))
      obtain ⟨c3, e3, h3, g3, f3⟩ := geo_initMethod g2 m
      simp only [Cmd.add] at h2
      exact ⟨c3, e3, by simp only [h2, h3], g3, ((f0.trans f1).trans f2).trans f3⟩
    | buf d =>
      obtain ⟨c2, e2, h2, g2, f2⟩ := geo_write g1 d
      obtain ⟨c3, e3, h3, g3, f3⟩ := geo_initMethod g2 m
      exact ⟨c3, e3, by simp only [Cmd.addRaw, h2, h3], g3, ((f0.trans f1).trans f2).trans f3⟩

theorem geo_pad (fuel : Nat) {c : ABuf} (h : Geo c) :
    ∃ c' e, Cmd.pad fuel c = (c', e) ∧ Geo c' ∧ Frame c c' := by
  induction fuel generalizing c with
  | zero => exact ⟨c, none, rfl, h, Frame.refl c⟩
  | succ n ih =>
    unfold Cmd.pad
    split
    · obtain ⟨c1, e1, h1, g1, f1, _⟩ := geo_writeByte h 0
      rw [h1]
      cases e1 with
      | some e => exact ⟨c1, _, rfl, g1, f1⟩
      | none =>
        obtain ⟨c2, e2, h2, g2, f2⟩ := ih g1
        exact ⟨c2, e2, h2, g2, f1.trans f2⟩
    · exact ⟨c, none, rfl, h, Frame.refl c⟩

theorem geo_finish {c : ABuf} (h : Geo c) :
    ∃ c' e, Cmd.finish c = .ret (c', e) ∧ Geo c' ∧ Frame c c' := by
  unfold Cmd.finish
  rw [if_neg (by rw [h.limit]; decide)]
  have g0 : Geo { c with rpos := headerSize } := ⟨h.limit, h.fits, h.wpos⟩
  have f0 : Frame c { c with rpos := headerSize } := ⟨rfl, rfl, rfl, fun _ _ => rfl⟩
  obtain ⟨c1, e1, h1, g1, f1⟩ := geo_pad 4 g0
  simp only [h1]
  cases e1 with
  | some e => exact ⟨c1, _, rfl, g1, f0.trans f1⟩
  | none =>
    have g2 : Geo c1.resetWrite := ⟨g1.limit, g1.fits, Nat.zero_le _⟩
    have f2 : Frame c1 c1.resetWrite := ⟨rfl, rfl, rfl, fun _ _ => rfl⟩
    obtain ⟨c3, e3, h3, g3, f3⟩ := geo_write g2 _
    exact ⟨c3, e3, h3, g3, ((f0.trans f1).trans f2).trans f3⟩

theorem geo_complete {c : ABuf} (h : Geo c) (eod : Bool) :
    ∃ c' e, Cmd.complete c eod = .ret (c', e) ∧ Geo c' ∧ Frame c c' := by
  unfold Cmd.complete
  split
  · obtain ⟨c1, e1, h1, g1, f1⟩ := geo_write h [0xf9, 0xf0, 0x00, 0x00, 0x00, 0xf1]
    rw [h1]
    cases e1 with
    | some e => exact ⟨c1, _, rfl, g1, f1⟩
    | none =>
      obtain ⟨c2, e2, h2, g2, f2⟩ := geo_finish g1
      exact ⟨c2, e2, h2, g2, f1.trans f2⟩
  · exact geo_finish h

theorem geo_exec {c : ABuf} (h : Geo c) (o : CmdOp) :
    ∃ c', Cmd.exec c o = .ret c' ∧ Geo c' ∧ Frame c c' := by
  cases o with
  | add o =>
    obtain ⟨c1, e1, h1, g1, f1⟩ := geo_add h o
    exact ⟨c1, by simp only [Cmd.exec, h1], g1, f1⟩
  | init i m =>
    obtain ⟨c1, e1, h1, g1, f1⟩ := geo_init h i m
    exact ⟨c1, by simp only [Cmd.exec, h1], g1, f1⟩
  | reset => exact ⟨_, rfl, geo_reset h⟩
  | complete e =>
    obtain ⟨c1, e1, h1, g1, f1⟩ := geo_complete h e
    exact ⟨c1, by simp only [Cmd.exec, h1], g1, f1⟩
  | comId v => exact ⟨_, rfl, geo_store h 4 _ c.wpos (by simp [cmdSize]) h.wpos⟩
  | tsn v => exact ⟨_, rfl, geo_store h 20 _ c.wpos (by simp [cmdSize]) h.wpos⟩
  | hsn v => exact ⟨_, rfl, geo_store h 24 _ c.wpos (by simp [cmdSize]) h.wpos⟩

/-- C05, safety over whole histories: whatever sequence of operations is performed on a new command (adds
of any size, `Init`, `Reset`, `Complete`, stamping, in any order and number, errors ignored), none panics,
the write position stays within 61440 bytes, and no byte outside the command window changes. -/
theorem command_history_safe (base : Nat) (ops : List CmdOp) :
    ∃ c, Cmd.execAll (newTcgCommand base) ops = .ret c ∧
      c.wpos ≤ 61440 ∧ c.mem.length = (newTcgCommand base).mem.length ∧
      ∀ j, (j < (newTcgCommand base).off ∨ (newTcgCommand base).off + 61440 ≤ j) →
        c.mem[j]? = (newTcgCommand base).mem[j]? := by
  have gen : ∀ (ops : List CmdOp) (c : ABuf), Geo c →
      ∃ c', Cmd.execAll c ops = .ret c' ∧ Geo c' ∧ Frame c c' := by
    intro ops
    induction ops with
    | nil => exact fun c h => ⟨c, rfl, h, Frame.refl c⟩
    | cons o os ih =>
      intro c h
      obtain ⟨c1, h1, g1, f1⟩ := geo_exec h o
      obtain ⟨c2, h2, g2, f2⟩ := ih c1 g1
      exact ⟨c2, by simp only [Cmd.execAll, h1, h2], g2, f1.trans f2⟩
  obtain ⟨c, h1, g, f⟩ := gen ops _ (newTcgCommand_win base).geo
  exact ⟨c, h1, g.wpos, f.len, f.outside⟩

example : ∃ c, Cmd.execAll (newTcgCommand 12345) [.add (.raw (List.replicate 70000 7)),
    .add (.num 1000), .complete true, .comId 3, .init (.buf []) (.buf []), .hsn 5] = .ret c :=
  let ⟨c, h, _⟩ := command_history_safe 12345 _; ⟨c, h⟩

/-- C05, silent cut: a raw token that does not fit entirely (but finds at least one free byte) is cut, its
prefix is stored, and the call still reports success; only at position 61440 does it report EOF. -/
theorem addRaw_silent_cut {c : ABuf} {content : Bytes} (h : Win c content) (d : Bytes) (hd : d ≠ []) :
    ∃ c' e, Cmd.addRaw c d = .ret (c', e) ∧ Win c' (content ++ d.take (61440 - content.length)) ∧
      (e = none ↔ content.length < 61440) ∧ (e = some .eof ↔ content.length = 61440) := by
  obtain ⟨c', e, w, f⟩ := write_win h d
  have hle : content.length ≤ 61440 := h.le
  rw [List.take_append, List.take_of_length_le h.le] at w
  refine ⟨c', _, e, w, ?_, ?_⟩
  · simp only [hd, false_or]
    show (if content.length = 61440 then some GoErr.eof else none) = none ↔ _
    split <;> simp <;> omega
  · simp only [hd, false_or]
    show (if content.length = 61440 then some GoErr.eof else none) = some GoErr.eof ↔ _
    split <;> simp [*]

/-! ## C06: length fields -/

/-- C06: every command whose payload (and trailer) fits is finished without error, and the finished
command `c'` carries: sub-packet length = number of token bytes `n`, packet length = `n` rounded up to a
multiple of 4, plus 12, com-packet length = packet length + 24, all big-endian at 52, 40, 16; after the
header the token bytes unchanged, then only zeros; all other header bytes unchanged; nothing outside the
window touched; the write position is left at 56. `content` is the command's bytes before `Complete`. -/
theorem complete_lengths {c : ABuf} {content : Bytes} (h : Win c content) (eod : Bool)
    (h56 : 56 ≤ content.length) (hfit : content.length + (trailer eod).length ≤ 61440) :
    ∃ c', Cmd.complete c eod = .ret (c', none) ∧ Frame c c' ∧ c'.wpos = 56 ∧ c'.buf.length = 61440 ∧
      (let n := content.length - 56 + (trailer eod).length
       beVal (slice c'.buf 52 4) = n ∧
       beVal (slice c'.buf 40 4) = up4 n + 12 ∧
       beVal (slice c'.buf 16 4) = up4 n + 12 + 24 ∧
       c'.buf.drop 56 = content.drop 56 ++ trailer eod ++ zeros (61440 - 56 - n)) ∧
      ∀ i, i < 56 → ¬ (16 ≤ i ∧ i < 20) → ¬ (40 ≤ i ∧ i < 44) → ¬ (52 ≤ i ∧ i < 56) →
        c'.buf[i]? = content[i]? := by
  obtain ⟨c', e, hw, hl, hb, hf⟩ := complete_win h eod h56 (by rw [List.length_append]; exact hfit)
  refine ⟨c', e, hf, hw, ?_, ?_, ?_⟩
  · unfold ABuf.buf
    rw [slice_length, hl]
    rw [hl, hf.off, hf.len]; exact h.fits
  all_goals
    simp only at hb
    rw [hb]
    obtain ⟨t, ht⟩ : ∃ t, t = content ++ trailer eod := ⟨_, rfl⟩
    have htl : t.length = content.length + (trailer eod).length := by rw [ht, List.length_append]
    rw [← ht]
    have hu : up4 (t.length) = up4 (t.length - 56) + 56 := by unfold up4; omega
    have hub : up4 t.length ≤ t.length + 3 := by unfold up4; omega
    have hn : t.length - 56 = content.length - 56 + (trailer eod).length := by omega
    obtain ⟨p1, p2, p3, p4, p5, p6, p7⟩ := six_parts (slice t 0 16) (beBytes 4 (up4 t.length - 20))
      (slice t 20 20) (beBytes 4 (up4 t.length - 44)) (slice t 44 8) (beBytes 4 (t.length - 56))
      (t.drop 56 ++ zeros (cmdSize - t.length)) (slice_length _ _ _ (by omega)) (beBytes_length _ _)
      (slice_length _ _ _ (by omega)) (beBytes_length _ _) (slice_length _ _ _ (by omega))
      (beBytes_length _ _)
  · rw [p1, p2, p3, p4, beVal_beBytes, beVal_beBytes, beVal_beBytes,
      Nat.mod_eq_of_lt (by omega), Nat.mod_eq_of_lt (by omega), Nat.mod_eq_of_lt (by omega), ← hn]
    refine ⟨rfl, by omega, by omega, ?_⟩
    rw [ht, List.drop_append_of_le_length h56, ← ht]
    congr 2
    show 61440 - t.length = _
    omega
  · intro i h1 h2 h3 h4
    have hi : content[i]? = t[i]? := by
      rw [ht, List.getElem?_append_left (by omega)]
    rw [hi]
    rcases (by omega : i < 16 ∨ (20 ≤ i ∧ i < 40) ∨ (44 ≤ i ∧ i < 52)) with h | ⟨h, h'⟩ | ⟨h, h'⟩
    · rw [p5 i h, getElem?_slice, if_pos h, Nat.zero_add]
    · rw [p6 i h h', getElem?_slice, if_pos (by omega)]
      congr 1; omega
    · rw [p7 i h h', getElem?_slice, if_pos (by omega)]
      congr 1; omega

example : ∃ c c', buildCommand 0 (.uid ADMINSP_UID) (.method M_GET) [.num 300] = .ret (c, none, [none]) ∧
    Cmd.complete c = .ret (c', none) ∧ beVal (slice c'.buf 52 4) = 28 ∧
    beVal (slice c'.buf 40 4) = 40 ∧ beVal (slice c'.buf 16 4) = 64 := by
  obtain ⟨c, h1, h2, _⟩ := build_exact 0 (.uid ADMINSP_UID) (.method M_GET) [.num 300] (by simp) (by simp)
    (by decide)
  obtain ⟨c', e, _, _, _, ⟨l1, l2, l3, _⟩, _⟩ := complete_lengths h2 true (by decide) (by decide)
  exact ⟨c, c', h1, e, by rw [l1]; decide, by rw [l2]; decide, by rw [l3]; decide⟩

/-! ## C07: our parser reads our commands -/

theorem encAdds_tokens {ops : List AddOp} {ts : List Token} (h : ops.map tokenOf = ts.map some) :
    encAdds ops = encodeAll ts ∧ (∀ t ∈ ts, t.WF) ∧ ∀ o ∈ ops, o ≠ .raw [] := by
  induction ops generalizing ts with
  | nil =>
    cases ts with
    | nil => simp [encAdds, encodeAll]
    | cons t ts => simp at h
  | cons o os ih =>
    cases ts with
    | nil => simp at h
    | cons t ts =>
      simp only [List.map_cons, List.cons.injEq] at h
      obtain ⟨i1, i2, i3⟩ := ih h.2
      refine ⟨?_, ?_, ?_⟩
      · simp only [encAdds, encodeAll, List.flatMap_cons] at i1 ⊢
        rw [encAdd_eq_tokenOf h.1, i1]
      · intro t' ht'
        rcases List.mem_cons.1 ht' with rfl | ht'
        · exact tokenOf_wf h.1
        · exact i2 _ ht'
      · intro o' ho'
        rcases List.mem_cons.1 ho' with rfl | ho'
        · intro he; rw [he] at h; simp [tokenOf] at h
        · exact i3 _ ho'

/-- The method call `Init` starts, and the trailer, as tokens. -/
def initTokens (u m : UID) : List Token := [.call, .short true false u.bytes, .short true false m.bytes]
def trailerTokens : List Token :=
  [.endOfData, .startList, .tiny false 0, .tiny false 0, .tiny false 0, .endList]

/-- C07: for every sequence of add calls denoting single tokens `ts` that fits a response buffer, building
and completing the command succeeds, and a response holding the finished command's first 2048 bytes parses
into exactly: CALL, the two UIDs, the encodings of `ts` (empty atoms dropped), and the trailer tokens
F9 F0 00 00 00 F1, whatever lies behind the response buffer. -/
theorem parse_own_command (base : Nat) (u m : UID) (ops : List AddOp) (ts : List Token)
    (hops : ops.map tokenOf = ts.map some) (hfit : 56 + 19 + (encodeAll ts).length + 6 ≤ 2048) :
    ∃ c c', buildCommand base (.uid u) (.method m) ops = .ret (c, none, ops.map (fun _ => none)) ∧
      Cmd.complete c = .ret (c', none) ∧
      ∀ (r : Resp) (after : Nat → Byte), r.buf = c'.buf.take 2048 →
        (r.commit after).2 = none ∧
        (r.commit after).1.tokens =
          [[0xf8], 0xa8 :: u.bytes, 0xa8 :: m.bytes] ++
          (ts.filter (fun t => t ≠ Token.emptyAtom)).map Token.encode ++
          [[0xf9], [0xf0], [0x00], [0x00], [0x00], [0xf1]] := by
  obtain ⟨he, hw, hr⟩ := encAdds_tokens hops
  have hil : (encInit (.uid u) (.method m)).length = 19 := by
    simp [encInit, encMethod, u.len, m.len]
  obtain ⟨c, h1, h2, _⟩ := build_exact base (.uid u) (.method m) ops (by simp) hr
    (by rw [hil, he]; show _ ≤ 61440; omega)
  have hcl : (zeros 56 ++ encInit (.uid u) (.method m) ++ encAdds ops).length
      = 75 + (encodeAll ts).length := by
    simp only [List.length_append, zeros_length, hil, he]
  obtain ⟨c', e, _, _, hbl, ⟨l1, l2, l3, l4⟩, _⟩ := complete_lengths h2 true (by omega)
    (by rw [hcl]; show _ + 6 ≤ _; omega)
  refine ⟨c, c', h1, e, ?_⟩
  intro r after hrb
  have ht6 : (trailer true).length = 6 := rfl
  rw [hcl, ht6] at l1 l4
  have hsl : ∀ i k, i + k ≤ 2048 → slice r.buf i k = slice c'.buf i k := by
    intro i k hik
    have := slice_slice c'.buf 0 2048 i k hik
    rw [hrb]
    simpa [slice] using this
  have hall : encodeAll (initTokens u m ++ ts ++ trailerTokens)
      = encInit (.uid u) (.method m) ++ encAdds ops ++ trailer true := by
    rw [he]
    simp [encodeAll, initTokens, trailerTokens, encInit, encMethod, trailer, Token.encode, Token.call,
      Token.endOfData, Token.startList, Token.endList, Token.flag, u.len, m.len, List.append_assoc]
  have hall_len : (encodeAll (initTokens u m ++ ts ++ trailerTokens)).length
      = 25 + (encodeAll ts).length := by
    rw [hall]; simp only [List.length_append, hil, he, ht6]; omega
  have hwf : ∀ t ∈ initTokens u m ++ ts ++ trailerTokens, t.WF := by
    intro t ht
    simp only [List.mem_append] at ht
    rcases ht with (ht | ht) | ht
    · simp only [initTokens, List.mem_cons, List.not_mem_nil, or_false] at ht
      rcases ht with rfl | rfl | rfl
      · show 8 < 16; omega
      · show u.bytes.length < 16; rw [u.len]; omega
      · show m.bytes.length < 16; rw [m.len]; omega
    · exact hw t ht
    · revert ht; revert t; decide
  have hcar : Carries r.buf (initTokens u m ++ ts ++ trailerTokens) := by
    refine ⟨by rw [hrb, List.length_take, hbl]; rfl, by rw [hall_len]; omega, ?_, ?_⟩
    · unfold announcedPayload
      rw [hsl 52 4 (by omega), l1, hall_len]; omega
    · rw [hsl 56 _ (by rw [hall_len]; omega)]
      have hd : slice c'.buf 56 (encodeAll (initTokens u m ++ ts ++ trailerTokens)).length
          = (c'.buf.drop 56).take (encodeAll (initTokens u m ++ ts ++ trailerTokens)).length := rfl
      rw [hd, l4, List.append_assoc (zeros 56), drop_left' _ _ _ (by simp), ← hall]
      exact List.take_left
  obtain ⟨c1, c2⟩ := commit_of_encoded r after _ hwf hcar
  refine ⟨c1, ?_⟩
  rw [c2]
  have hi : (initTokens u m).filter (fun t => t ≠ Token.emptyAtom) = initTokens u m := by
    simp [initTokens, Token.emptyAtom, Token.call]
  have htr : trailerTokens.filter (fun t => t ≠ Token.emptyAtom) = trailerTokens := by decide
  rw [List.filter_append, List.filter_append, hi, htr, List.map_append, List.map_append]
  congr 1
  congr 1
  simp [initTokens, Token.encode, Token.call, Token.flag, u.len, m.len]

example : ([.tok (.int 0xf0), .num 5000, .str [0x41] none, .tok (.int 0xf1)] : List AddOp).map tokenOf
    = ([.startList, .uint 5000, .bytes [0x41], .endList] : List Token).map some := by decide

/-! ## C08: what is transmitted -/

theorem and511 (n : Nat) : n &&& 511 = n % 512 := Nat.and_two_pow_sub_one_eq_mod n 9

/-- C08, size: the transmitted size is the write position rounded up to a multiple of 512. -/
theorem getCmdSize_roundUp (c : ABuf) :
    512 ∣ Cmd.getCmdSize c ∧ c.wpos ≤ Cmd.getCmdSize c ∧ Cmd.getCmdSize c < c.wpos + 512 := by
  unfold Cmd.getCmdSize
  simp only [and511]
  by_cases h : c.wpos % 512 = 0
  · simp only [h, bne_self_eq_false, Bool.false_eq_true, if_false]
    omega
  · simp only [bne_iff_ne, ne_eq, h, not_false_eq_true, if_true]
    omega

/-- C08: after a successful `Complete` exactly the first 512 bytes of the command are transmitted,
whatever its length. A finished command of at most 512 bytes is thereby transmitted completely (only zeros
remain unsent); for a longer one every token byte from offset 512 on is lost. -/
theorem wire_after_complete {c : ABuf} {content : Bytes} (h : Win c content) (eod : Bool)
    (h56 : 56 ≤ content.length) (hfit : content.length + (trailer eod).length ≤ 61440) :
    ∃ c', Cmd.complete c eod = .ret (c', none) ∧ Cmd.getCmdSize c' = 512 ∧
      Cmd.wire c' = c'.buf.take 512 ∧
      (content.length + (trailer eod).length ≤ 512 →
        c'.buf = Cmd.wire c' ++ zeros (61440 - 512)) ∧
      (512 < content.length + (trailer eod).length →
        (Cmd.wire c').drop 56 = ((content ++ trailer eod).drop 56).take 456 ∧
        c'.buf.drop 512 = (content ++ trailer eod).drop 512
          ++ zeros (61440 - (content ++ trailer eod).length)) := by
  obtain ⟨c', e, hf, hw, hbl, ⟨_, _, _, hd⟩, _⟩ := complete_lengths h eod h56 hfit
  have hsz : Cmd.getCmdSize c' = 512 := by unfold Cmd.getCmdSize; rw [hw]; decide
  have hlim : c'.limit = cmdSize := by
    obtain ⟨c2, e2, _, hl2, _⟩ := complete_win h eod h56 (by rw [List.length_append]; exact hfit)
    rw [e] at e2
    simp only [P.ret.injEq, Prod.mk.injEq, and_true] at e2
    rw [e2]; exact hl2
  have hwire : Cmd.wire c' = c'.buf.take 512 := by
    unfold Cmd.wire ABuf.buf
    rw [hsz, hlim]
    unfold slice
    rw [List.take_take]; rfl
  have hdt : (content ++ trailer eod).drop 56 = content.drop 56 ++ trailer eod :=
    List.drop_append_of_le_length h56
  have hlen : (content ++ trailer eod).length = content.length + (trailer eod).length :=
    List.length_append
  have hb512 : c'.buf.drop 512 = (c'.buf.drop 56).drop 456 := by rw [List.drop_drop]
  have hd512 : (content ++ trailer eod).drop 512 = ((content ++ trailer eod).drop 56).drop 456 := by
    rw [List.drop_drop]
  refine ⟨c', e, hsz, hwire, ?_, ?_⟩
  · intro hs
    have : c'.buf.drop 512 = zeros (61440 - 512) := by
      rw [hb512, hd, List.drop_append, List.drop_of_length_le, List.nil_append, drop_zeros]
      · congr 1
        rw [List.length_append, List.length_drop]; omega
      · rw [List.length_append, List.length_drop]; omega
    rw [hwire, ← this, List.take_append_drop]
  · intro hs
    constructor
    · rw [hwire, List.drop_take, hd, hdt, List.take_append_of_le_length]
      rw [List.length_append, List.length_drop]; omega
    · rw [hb512, hd, hd512, hdt, List.drop_append_of_le_length, hlen]
      · congr 2; omega
      · rw [List.length_append, List.length_drop]; omega

/-- C08 is not vacuous in its second case: a command with one string of 600 bytes loses bytes. -/
example (text : Bytes) (ht : text.length = 600) :
    ∃ c c', buildCommand 0 (.uid ADMINSP_UID) (.method M_GET) [.str text none] = .ret (c, none, [none]) ∧
      Cmd.complete c = .ret (c', none) ∧ Cmd.getCmdSize c' = 512 ∧ beVal (slice c'.buf 52 4) = 627 := by
  have hlen : (encAdds [.str text none]).length = 602 := by
    simp [encAdds, encAdd, encAdd.encStr, ht]
  obtain ⟨c, h1, h2, _⟩ := build_exact 0 (.uid ADMINSP_UID) (.method M_GET)
    [.str text none] (by simp) (by simp) (by rw [hlen]; decide)
  have hl : (zeros 56 ++ encInit (.uid ADMINSP_UID) (.method M_GET) ++ encAdds [.str text none]).length
      = 677 := by rw [List.length_append, hlen]; rfl
  have ht6 : (trailer true).length = 6 := rfl
  obtain ⟨c', e, hw, _⟩ := wire_after_complete h2 true (by omega) (by omega)
  obtain ⟨c2, e2, _, _, hbl, ⟨hn, _⟩, _⟩ := complete_lengths h2 true (by omega) (by omega)
  rw [e] at e2
  simp only [P.ret.injEq, Prod.mk.injEq, and_true] at e2
  subst e2
  exact ⟨c, c', h1, e, hw, by rw [hn, hl, ht6]⟩

/-! ## C09: stamping -/

theorem copyAt_buf {c : ABuf} (g : Geo c) (i : Nat) (p : Bytes) (hp : i + p.length ≤ cmdSize) (j : Nat) :
    ({ c with mem := copyAt c.mem (c.off + i) p } : ABuf).buf[j]? =
      if i ≤ j ∧ j < i + p.length then p[j - i]? else c.buf[j]? := by
  unfold ABuf.buf
  simp only
  rw [g.limit, slice_copyAt_inside _ _ _ _ _ hp g.fits,
    getElem?_copyAt _ _ _ _ (by rw [slice_length _ _ _ g.fits]; exact hp)]

/-- C09: the three stamps change only their own header bytes of the command (positions 4..7, 20..23 and
24..27), leave the write position alone, commute with one another, and touch nothing outside the window.
ComID: big-endian in two bytes, then two zeros. -/
theorem stamping_frame {c : ABuf} (g : Geo c) (id : BitVec 16) (tsn hsn : BitVec 32) :
    (∀ j, ¬ (4 ≤ j ∧ j < 8) → (Cmd.setComId c id).buf[j]? = c.buf[j]?) ∧
    (∀ j, ¬ (20 ≤ j ∧ j < 24) → (Cmd.setTSN c tsn).buf[j]? = c.buf[j]?) ∧
    (∀ j, ¬ (24 ≤ j ∧ j < 28) → (Cmd.setHSN c hsn).buf[j]? = c.buf[j]?) ∧
    slice (Cmd.setComId c id).buf 4 4 = beBytes 2 id.toNat ++ [0, 0] ∧
    slice (Cmd.setTSN c tsn).buf 20 4 = leBytes 4 tsn.toNat ∧
    slice (Cmd.setHSN c hsn).buf 24 4 = leBytes 4 hsn.toNat ∧
    Frame c (Cmd.setComId c id) ∧ Frame c (Cmd.setTSN c tsn) ∧ Frame c (Cmd.setHSN c hsn) ∧
    (Cmd.setComId c id).wpos = c.wpos ∧ (Cmd.setTSN c tsn).wpos = c.wpos ∧
    (Cmd.setHSN c hsn).wpos = c.wpos ∧
    Cmd.setComId (Cmd.setTSN c tsn) id = Cmd.setTSN (Cmd.setComId c id) tsn ∧
    Cmd.setComId (Cmd.setHSN c hsn) id = Cmd.setHSN (Cmd.setComId c id) hsn ∧
    Cmd.setTSN (Cmd.setHSN c hsn) tsn = Cmd.setHSN (Cmd.setTSN c tsn) hsn := by
  have hf := g.fits
  have hc : cmdSize = 61440 := rfl
  have hlim := g.limit
  have hid : beBytes 2 id.toNat = [(id >>> 8).setWidth 8, id.setWidth 8] := by
    simp only [beBytes]
    congr 1
    · apply BitVec.eq_of_toNat_eq; simp [Nat.shiftRight_eq_div_pow]
    · congr 1; apply BitVec.eq_of_toNat_eq; simp
  have same : ∀ (i : Nat) (p : Bytes), i + p.length ≤ cmdSize →
      slice ({ c with mem := copyAt c.mem (c.off + i) p } : ABuf).buf i p.length = p := by
    intro i p hp
    apply List.ext_getElem?
    intro j
    rw [getElem?_slice]
    split
    · rw [copyAt_buf g i p hp, if_pos (by omega)]
      congr 1; omega
    · rw [List.getElem?_eq_none]; omega
  refine ⟨?_, ?_, ?_, ?_, ?_, ?_, ?_, ?_, ?_, rfl, rfl, rfl, ?_, ?_, ?_⟩
  · intro j hj
    unfold Cmd.setComId
    rw [copyAt_buf g _ _ (by simp; omega), if_neg (by simpa using hj)]
  · intro j hj
    unfold Cmd.setTSN
    rw [copyAt_buf g _ _ (by simp; omega), if_neg (by simpa using hj)]
  · intro j hj
    unfold Cmd.setHSN
    rw [copyAt_buf g _ _ (by simp; omega), if_neg (by simpa using hj)]
  · rw [hid]; exact same 4 [(id >>> 8).setWidth 8, id.setWidth 8, 0x00, 0x00] (by simp; omega)
  · have := same 20 (leBytes 4 tsn.toNat) (by simp; omega)
    rw [leBytes_length] at this; exact this
  · have := same 24 (leBytes 4 hsn.toNat) (by simp; omega)
    rw [leBytes_length] at this; exact this
  · exact (geo_store g 4 _ c.wpos (by simp [cmdSize]) g.wpos).2
  · exact (geo_store g 20 _ c.wpos (by simp [cmdSize]) g.wpos).2
  · exact (geo_store g 24 _ c.wpos (by simp [cmdSize]) g.wpos).2
  · unfold Cmd.setComId Cmd.setTSN
    simp only
    rw [copyAt_comm _ _ _ _ _ (by simp; omega) (by simp; omega) (by simp)]
  · unfold Cmd.setComId Cmd.setHSN
    simp only
    rw [copyAt_comm _ _ _ _ _ (by simp; omega) (by simp; omega) (by simp)]
  · unfold Cmd.setTSN Cmd.setHSN
    simp only
    rw [copyAt_comm _ _ _ _ _ (by simp; omega) (by simp; omega) (by simp)]

/-- C09: token bytes (offset 56 on) are never changed by stamping, and every command any history
produces has the geometry `stamping_frame` asks for. -/
theorem stamping_keeps_tokens (base : Nat) (ops : List CmdOp) (id : BitVec 16) (tsn hsn : BitVec 32) :
    ∃ c, Cmd.execAll (newTcgCommand base) ops = .ret c ∧ Geo c ∧
      (Cmd.setComId (Cmd.setTSN (Cmd.setHSN c hsn) tsn) id).buf.drop 56 = c.buf.drop 56 := by
  have gen : ∀ (ops : List CmdOp) (c : ABuf), Geo c →
      ∃ c', Cmd.execAll c ops = .ret c' ∧ Geo c' := by
    intro ops
    induction ops with
    | nil => exact fun c h => ⟨c, rfl, h⟩
    | cons o os ih =>
      intro c h
      obtain ⟨c1, h1, g1, _⟩ := geo_exec h o
      obtain ⟨c2, h2, g2⟩ := ih c1 g1
      exact ⟨c2, by simp only [Cmd.execAll, h1, h2], g2⟩
  obtain ⟨c, h1, g⟩ := gen ops _ (newTcgCommand_win base).geo
  refine ⟨c, h1, g, ?_⟩
  obtain ⟨c1, e1, g1, _⟩ := geo_exec g (.hsn hsn)
  simp only [Cmd.exec, P.ret.injEq] at e1; subst e1
  obtain ⟨c2, e2, g2, _⟩ := geo_exec g1 (.tsn tsn)
  simp only [Cmd.exec, P.ret.injEq] at e2; subst e2
  apply List.ext_getElem?
  intro j
  rw [List.getElem?_drop, List.getElem?_drop,
    (stamping_frame g2 id tsn hsn).1 _ (by omega), (stamping_frame g1 id tsn hsn).2.1 _ (by omega),
    (stamping_frame g id tsn hsn).2.2.1 _ (by omega)]

end Dparm
