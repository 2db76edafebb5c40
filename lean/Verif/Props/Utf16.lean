import Verif.Lemmas.Utf16
import Verif.Props.WinVolume
/-!
# Properties: texts between Go and Windows (C173)
-/
namespace Dparm
open Spec

/-- One step of the conversion: the UTF-16 of a scalar value. -/
theorem decode_scalar (wtf : Bool) {c : Nat} (h : Scalar c) (w : Wide) : utf16Decode wtf (utf16 c ++ w) = utf8 c ++ utf16Decode wtf w := by
  have hr := h.2
  unfold utf16
  by_cases h1 : c < 0x10000
  · rw [if_pos h1]
    have e : (BitVec.ofNat 16 c).toNat = c := by rw [BitVec.toNat_ofNat]; omega
    have hne : BitVec.ofNat 16 c ≠ 0#16 := by
      intro hh
      have := congrArg BitVec.toNat hh
      rw [e] at this
      have := h.1
      simp at *
      omega
    simp only [List.cons_append, List.nil_append]
    rw [utf16Decode.eq_def]
    dsimp only
    rw [if_neg hne, e, if_pos (by omega), appendRune_utf8 (by omega)]
  · rw [if_neg h1]
    have e1 : (BitVec.ofNat 16 (0xd800 + (c - 0x10000) / 1024)).toNat = 0xd800 + (c - 0x10000) / 1024 := by
      rw [BitVec.toNat_ofNat]; omega
    have e2 : (BitVec.ofNat 16 (0xdc00 + (c - 0x10000) % 1024)).toNat = 0xdc00 + (c - 0x10000) % 1024 := by
      rw [BitVec.toNat_ofNat]; omega
    have hne : BitVec.ofNat 16 (0xd800 + (c - 0x10000) / 1024) ≠ 0#16 := by
      intro hh
      have := congrArg BitVec.toNat hh
      rw [e1] at this
      simp at this
    simp only [List.cons_append, List.nil_append]
    rw [utf16Decode.eq_def]
    dsimp only
    rw [if_neg hne, e1, if_neg (by omega), e2, if_pos (by omega), or_shift _ _ 10 (by omega)]
    have hc : (0xd800 + (c - 0x10000) / 1024 - 0xd800) * 2 ^ 10 + (0xdc00 + (c - 0x10000) % 1024 - 0xdc00) + 0x10000 = c := by omega
    rw [hc, appendRune_utf8 (by omega)]

/-- **C173.** A text received from Windows: the Go string is its UTF-8, up to the NUL that ends it (or the end of the buffer). -/
theorem text_received (wtf : Bool) (text : List Nat) (ht : ∀ c ∈ text, Scalar c) (rest : Wide) (hrest : rest = [] ∨ rest[0]? = some 0) :
    utf16Decode wtf (text.flatMap utf16 ++ rest) = text.flatMap utf8 := by
  induction text with
  | nil =>
    rcases hrest with rfl | hrest
    · simp [utf16Decode]
    · cases rest with
      | nil => simp at hrest
      | cons a as =>
        simp only [List.getElem?_cons_zero, Option.some.injEq] at hrest
        subst hrest
        simp only [List.flatMap_nil, List.nil_append]
        rw [utf16Decode.eq_def]
        simp
  | cons c cs ih =>
    rw [List.flatMap_cons, List.flatMap_cons, List.append_assoc, decode_scalar wtf (ht c List.mem_cons_self),
      ih (fun x hx => ht x (List.mem_cons_of_mem _ hx))]

theorem utf8_no_nul {c : Nat} (h : Scalar c) : (0 : Byte) ∉ utf8 c := by
  have h0 := h.1
  have hr := h.2
  have key : ∀ n : Nat, 0 < n → n < 256 → (0 : Byte) ≠ BitVec.ofNat 8 n := by
    intro n h1 h2 hh
    have := congrArg BitVec.toNat hh
    rw [BitVec.toNat_ofNat] at this
    simp at this
    omega
  unfold utf8
  repeat' split
  all_goals
    simp only [List.mem_cons, List.not_mem_nil, or_false, not_or]
    repeat' apply And.intro
    all_goals (apply key <;> omega)

theorem encode_nil (wtf : Bool) : utf16Encode wtf [] = [] := by rw [utf16Encode]

/-- **C173.** A text given to Windows: the UTF-8 of scalar values other than NUL is accepted, and Windows sees its UTF-16; a text with a NUL is
refused. -/
theorem text_given (wtf : Bool) :
    (∀ text : List Nat, (∀ c ∈ text, Scalar c) → utf16FromString wtf (text.flatMap utf8) = some (text.flatMap utf16)) ∧
    ∀ s : Bytes, 0 ∈ s → utf16FromString wtf s = none := by
  constructor
  · intro text ht
    unfold utf16FromString
    rw [if_neg]
    · congr 1
      induction text with
      | nil => simp [encode_nil]
      | cons c cs ih =>
        rw [List.flatMap_cons, List.flatMap_cons, encode_scalar wtf (ht c List.mem_cons_self).2,
          ih (fun x hx => ht x (List.mem_cons_of_mem _ hx))]
    · simp only [List.contains_iff_mem, List.mem_flatMap, not_exists, not_and]
      exact fun c hc => utf8_no_nul (ht c hc)
  · intro s hs
    unfold utf16FromString
    rw [if_pos (by simpa using hs)]

theorem surrogate_no_nul {s : Nat} (h1 : 0xd800 ≤ s) (h2 : s < 0xe000) : (0 : Byte) ∉ appendRune s := by
  rw [surrogate_bytes h1 h2]
  have key : ∀ n : Nat, 0 < n → n < 256 → (0 : Byte) ≠ BitVec.ofNat 8 n := by
    intro n h1 h2 hh
    have := congrArg BitVec.toNat hh
    rw [BitVec.toNat_ofNat] at this
    simp at this
    omega
  simp only [List.mem_cons, List.not_mem_nil, or_false, not_or]
  exact ⟨by decide, key _ (by omega) (by omega), key _ (by omega) (by omega)⟩

/-- The pieces a text of 16-bit characters is read in, in the later version. -/
theorem decode_pieces (w : Wide) (hw : 0 ∉ w) : w = [] ∨
    (∃ c v, Scalar c ∧ w = utf16 c ++ v) ∨
    (∃ s v, 0xd800 ≤ s ∧ s < 0xe000 ∧ w = BitVec.ofNat 16 s :: v ∧
      ∀ (wtf : Bool) (x : Wide), (∀ b ∈ x, b.toNat < 0xdc00) →
        utf16Decode wtf (w ++ x) = appendRune (if wtf then s else 0xfffd) ++ utf16Decode wtf (v ++ x)) := by
  cases w with
  | nil => exact .inl rfl
  | cons a v =>
    right
    have ha : a ≠ 0#16 := fun h => hw (by rw [h]; exact List.mem_cons_self)
    have hpos : 0 < a.toNat := by
      rcases Nat.eq_zero_or_pos a.toNat with h | h
      · exact absurd (BitVec.eq_of_toNat_eq (by rw [h]; rfl)) ha
      · exact h
    have halt : a.toNat < 65536 := a.isLt
    have haof : BitVec.ofNat 16 a.toNat = a := by simp
    by_cases h1 : a.toNat < 0xd800 ∨ 0xe000 ≤ a.toNat
    · left
      refine ⟨a.toNat, v, ⟨hpos, by omega⟩, ?_⟩
      unfold utf16
      rw [if_pos (by omega), haof]
      rfl
    · cases v with
      | nil =>
        right
        refine ⟨a.toNat, [], by omega, by omega, by rw [haof], fun wtf x hx => ?_⟩
        rw [utf16Decode.eq_def]
        cases x with
        | nil =>
          simp only [List.append_nil]
          rw [if_neg ha, if_neg h1, utf16Decode, List.append_nil]
        | cons b x =>
          have := hx b List.mem_cons_self
          simp only [List.nil_append, List.cons_append]
          rw [if_neg ha, if_neg h1, if_neg (by omega)]
      | cons b v =>
        by_cases h2 : a.toNat < 0xdc00 ∧ 0xdc00 ≤ b.toNat ∧ b.toNat < 0xe000
        · left
          have hbof : BitVec.ofNat 16 b.toNat = b := by simp
          refine ⟨0x10000 + (a.toNat - 0xd800) * 1024 + (b.toNat - 0xdc00), v, ⟨by omega, by omega⟩, ?_⟩
          unfold utf16
          rw [if_neg (by omega), show 0xd800 + (0x10000 + (a.toNat - 0xd800) * 1024 + (b.toNat - 0xdc00) - 0x10000) / 1024 = a.toNat by omega,
            show 0xdc00 + (0x10000 + (a.toNat - 0xd800) * 1024 + (b.toNat - 0xdc00) - 0x10000) % 1024 = b.toNat by omega, haof, hbof]
          rfl
        · right
          refine ⟨a.toNat, b :: v, by omega, by omega, by rw [haof], fun wtf x _ => ?_⟩
          rw [utf16Decode.eq_def]
          simp only [List.cons_append]
          rw [if_neg ha, if_neg h1, if_neg h2]

theorem utf16_no_nul {c : Nat} (h : Scalar c) : (0 : BitVec 16) ∉ utf16 c := by
  have h0 := h.1
  have hr := h.2
  have key : ∀ n : Nat, 0 < n → n < 65536 → (0 : BitVec 16) ≠ BitVec.ofNat 16 n := by
    intro n h1 h2 hh
    have := congrArg BitVec.toNat hh
    rw [BitVec.toNat_ofNat] at this
    simp at this
    omega
  unfold utf16
  split
  · simp only [List.mem_cons, List.not_mem_nil, or_false]
    exact key _ (by omega) (by omega)
  · simp only [List.mem_cons, List.not_mem_nil, or_false, not_or]
    exact ⟨key _ (by omega) (by omega), key _ (by omega) (by omega)⟩

theorem utf16_length (c : Nat) : 0 < (utf16 c).length := by
  unfold utf16; split <;> simp

/-- **C173.** Back and forth: a text of Windows without NUL, converted to a Go string and given back to Windows (a path found by the library and
opened by it, or reported to the caller and handed back), is the same text, unless it has a surrogate without its counterpart and the Go
version is before 1.21. -/
theorem text_round_trip (wtf : Bool) (w : Wide) (hw : 0 ∉ w) (hwf : wtf = true ∨ WellFormed w) :
    utf16FromString wtf (utf16Decode wtf w) = some w := by
  rcases hwf with rfl | ⟨text, ht, rfl⟩
  · have key : ∀ (n : Nat) (w : Wide), w.length = n → 0 ∉ w → 0 ∉ utf16Decode true w ∧ utf16Encode true (utf16Decode true w) = w := by
      intro n
      induction n using Nat.strongRecOn with
      | _ n ih =>
        intro w hn hw
        rcases decode_pieces w hw with rfl | ⟨c, v, hc, rfl⟩ | ⟨s, v, h1, h2, rfl, hd⟩
        · rw [utf16Decode]; exact ⟨by simp, encode_nil _⟩
        · have hlen := utf16_length c
          rw [List.mem_append, not_or] at hw
          obtain ⟨i1, i2⟩ := ih v.length (by rw [← hn, List.length_append]; omega) v rfl hw.2
          rw [decode_scalar true hc, encode_scalar true hc.2, i2]
          refine ⟨?_, rfl⟩
          rw [List.mem_append, not_or]
          exact ⟨utf8_no_nul hc, i1⟩
        · rw [List.mem_cons, not_or] at hw
          obtain ⟨i1, i2⟩ := ih v.length (by rw [← hn]; simp) v rfl hw.2
          have hd := hd true [] (by simp)
          rw [List.append_nil, List.append_nil] at hd
          rw [hd, if_pos rfl, encode_surrogate h1 h2, i2]
          refine ⟨?_, rfl⟩
          rw [List.mem_append, not_or]
          exact ⟨surrogate_no_nul h1 h2, i1⟩
    obtain ⟨k1, k2⟩ := key _ w rfl hw
    unfold utf16FromString
    rw [if_neg (by simpa using k1), k2]
  · have := text_received wtf text ht [] (.inl rfl)
    rw [List.append_nil] at this
    rw [this, (text_given wtf).1 text ht]

/-- **C173.** Different texts of Windows are different Go strings, with the same exception. -/
theorem text_distinct (wtf : Bool) (v w : Wide) (hv : 0 ∉ v) (hw : 0 ∉ w) (hwf : wtf = true ∨ (WellFormed v ∧ WellFormed w))
    (h : utf16Decode wtf v = utf16Decode wtf w) : v = w := by
  have h1 := text_round_trip wtf v hv (hwf.imp id And.left)
  have h2 := text_round_trip wtf w hw (hwf.imp id And.right)
  rw [h, h2] at h1
  injection h1 with h1
  exact h1.symm

/-! ## Opening what was found -/

/-- What the trace of opening a path begins with. -/
theorem open_path_first (w : WinRun) (ds : List WinOpener) (path : Bytes) (hp : path.contains 0#8 = false) (env : Prog.Env WReq WRep)
    (hist : Prog.Trace WReq WRep) : ∃ r u, (OutT.run env hist (winOpenByPath w ds path)).2 = (.openDevice path, r) :: u := by
  unfold winOpenByPath winOpenDevice
  rw [hp]
  simp only [Bool.false_eq_true, if_false]
  rw [OutT.run_bind, OutT.run_bind]
  refine ⟨env hist (.openDevice path), ?_⟩
  rw [OutT.run_ask]
  dsimp only
  cases (env hist (.openDevice path)).err with
  | some e =>
    refine ⟨[], ?_⟩
    simp
  | none =>
    rw [OutT.run_ret]
    dsimp only
    rw [OutT.run_bind]
    rcases OutT.run env _ (winOpenByHandle w ds _ path) with ⟨o, t⟩
    cases o <;> exact ⟨_, by simp; rfl⟩

theorem detail_no_nul {buf : Bytes} {text : Wide} (h : DetailText buf text) : 0 ∉ text := by
  intro hm
  obtain ⟨i, hi, he⟩ := List.getElem_of_mem hm
  have := (h.chars i hi).2.2
  rw [← List.getElem_eq_getD (h := hi)] at this
  exact this he

theorem fromString_some {wtf : Bool} {p : Bytes} {w : Wide} (h : utf16FromString wtf p = some w) : p.contains 0#8 = false := by
  unfold utf16FromString at h
  split at h
  · cases h
  · simpa using ‹¬ p.contains 0#8 = true›

/-- **C173.** Enumerating drives: whatever `EnumDrives` opens for a device, it opens under the name Windows gave the device, character for
character (with the exception above). Here one device: either it is not opened at all, or there is the detail record Windows delivered with a
text, and what follows the inquiries begins with a CreateFile of a path that Windows sees as that text. -/
theorem enum_opens_named (wtf : Bool) (w : WinRun) (ds : List WinOpener) (env : Prog.Env WReq WRep) (set i size : Nat)
    (hist t : Prog.Trace WReq WRep) (size' : Nat) (o : Option WinOpened)
    (h : Spec.Device (winOpenByPath w ds) (utf16Decode wtf) env set i size hist t size' o) :
    (o = none ∧ ∀ p r, (WReq.openDevice p, r) ∉ t) ∨
    ∃ d f td u buf text, t = (.setupDevice set i, d) :: (.setupInterface set i, f) :: td ++ u ∧ Details set i size td size' (some buf) ∧
      DetailText buf text ∧ ((wtf = true ∨ WellFormed text) →
        ∃ p r rest, u = (.openDevice p, r) :: rest ∧ utf16FromString wtf p = some text) := by
  have key : ∀ text buf H u, DetailText buf text → (OutT.run env H (winOpenByPath w ds (utf16Decode wtf text))).2 = u →
      (wtf = true ∨ WellFormed text) → ∃ p r rest, u = (.openDevice p, r) :: rest ∧ utf16FromString wtf p = some text := by
    intro text buf H u hd hu hwf
    have hs := text_round_trip wtf text (detail_no_nul hd) hwf
    obtain ⟨r, rest, hr⟩ := open_path_first w ds _ (fromString_some hs) env H
    exact ⟨_, r, rest, by rw [← hu, hr], hs⟩
  cases h with
  | noInterface d f _ _ =>
    left
    refine ⟨rfl, fun p r hm => ?_⟩
    simp at hm
  | noDetails d f td size'' _ _ hd =>
    left
    refine ⟨rfl, fun p r hm => ?_⟩
    cases hd <;> simp at hm
  | notOpened d f td u size'' buf text e _ _ hd ht hr =>
    right
    exact ⟨d, f, td, u, buf, text, rfl, hd, ht, key text buf _ u ht (by rw [hr])⟩
  | opened d f td u size'' buf text o' _ _ hd ht hr =>
    right
    exact ⟨d, f, td, u, buf, text, rfl, hd, ht, key text buf _ u ht (by rw [hr])⟩

/-! ## Volumes -/

/-- The names under which a run asked Windows to open volumes. -/
def Spec.volumeNames (t : Prog.Trace WReq WRep) : List Wide :=
  t.filterMap (fun x => match x.1 with
    | .openVolume n => some n
    | _ => none)

theorem names_append (t u : Prog.Trace WReq WRep) : volumeNames (t ++ u) = volumeNames t ++ volumeNames u := by
  unfold volumeNames; rw [List.filterMap_append]

theorem extents_no_names {h : Nat} {beyond : Nat → Byte} {t : Prog.Trace WReq WRep} {es : List Extent} {p : Option WinPart}
    (hs : ExtentsSeen h beyond t es p) : volumeNames t = [] := by
  cases hs <;> rfl

theorem bare_clean {name bare : Wide} (hb : BareName name bare) (hn : 0 ∉ name) : 0 ∉ bare := by
  obtain ⟨k, hk⟩ := hb.rest
  rw [hk, List.mem_append, not_or] at hn
  exact hn.1

theorem seen_name {conv : Wide → Bytes} {beyond : Nat → Byte} {name : Wide} {t : Prog.Trace WReq WRep} {v : WinVol} {h : Option Nat}
    (hs : VolumeSeen conv beyond name t v h) (hn : 0 ∉ name) :
    ∃ bare, volumeNames t = [bare] ∧ v.path = conv bare ∧ 0 ∉ bare ∧ bare.getLast? ≠ some 0x5c := by
  cases hs with
  | closed bare p i d o e v hb _ _ _ _ hp _ _ => exact ⟨bare, rfl, hp, bare_clean hb hn, hb.last⟩
  | opened bare p i d o t v hb _ _ _ _ hp hx =>
    refine ⟨bare, ?_, hp, bare_clean hb hn, hb.last⟩
    rw [names_append, extents_no_names hx]
    rfl

theorem volumes_names {conv : Wide → Bytes} {beyond : Nat → Byte} {find : Nat} {name : Wide} {t : Prog.Trace WReq WRep} {vs : List WinVol}
    {hs : List Nat} (h : Volumes conv beyond find name t vs hs) (hn : 0 ∉ name) :
    vs.map (·.path) = (volumeNames t).map conv ∧ ∀ n ∈ volumeNames t, 0 ∉ n ∧ n.getLast? ≠ some 0x5c := by
  induction h with
  | last name t v h n e hv _ =>
    obtain ⟨bare, h1, h2, h3, h4⟩ := seen_name hv hn
    have : volumeNames (t ++ [(.nextVolume find, n)]) = [bare] := by rw [names_append, h1]; rfl
    rw [this]
    exact ⟨by simp [h2], by simpa using ⟨h3, h4⟩⟩
  | more name name' t u v h n vs hs hv _ hc _ ih =>
    obtain ⟨bare, h1, h2, h3, h4⟩ := seen_name hv hn
    obtain ⟨i1, i2⟩ := ih hc.clean
    have : volumeNames (t ++ (.nextVolume find, n) :: u) = bare :: volumeNames u := by rw [names_append, h1]; rfl
    rw [this]
    refine ⟨by simp [h2, i1], ?_⟩
    intro x hx
    rcases List.mem_cons.1 hx with rfl | hx
    · exact ⟨h3, h4⟩
    · exact i2 x hx

theorem decode_more (wtf : Bool) (x : Wide) (hx : ∀ b ∈ x, b.toNat < 0xdc00) : ∀ (n : Nat) (w : Wide), w.length = n → 0 ∉ w →
    utf16Decode wtf (w ++ x) = utf16Decode wtf w ++ utf16Decode wtf x := by
  intro n
  induction n using Nat.strongRecOn with
  | _ n ih =>
    intro w hn hw
    rcases decode_pieces w hw with rfl | ⟨c, v, hc, rfl⟩ | ⟨s, v, h1, h2, rfl, hd⟩
    · simp [utf16Decode]
    · have hlen := utf16_length c
      rw [List.mem_append, not_or] at hw
      rw [List.append_assoc, decode_scalar wtf hc, decode_scalar wtf hc,
        ih v.length (by rw [← hn, List.length_append]; omega) v rfl hw.2, List.append_assoc]
    · rw [List.mem_cons, not_or] at hw
      have h0 := hd wtf [] (by simp)
      rw [List.append_nil, List.append_nil] at h0
      rw [hd wtf x hx, h0, ih v.length (by rw [← hn]; simp) v rfl hw.2, List.append_assoc]

theorem rune_last {c : Nat} (h : c < 0x110000) : ((utf8 c).getLast? = some 0x5c ↔ c = 0x5c) := by
  have key : ∀ n : Nat, n < 256 → (BitVec.ofNat 8 n = (0x5c : Byte) ↔ n = 0x5c) := by
    intro n h1
    constructor
    · intro hh
      have := congrArg BitVec.toNat hh
      rw [BitVec.toNat_ofNat] at this
      simp at this
      omega
    · rintro rfl; rfl
  unfold utf8
  split
  · simp only [List.getLast?_singleton, Option.some.injEq]
    exact key c (by omega)
  split
  · simp only [List.getLast?_cons_cons, List.getLast?_singleton, Option.some.injEq]
    rw [key _ (by omega)]
    omega
  split
  · simp only [List.getLast?_cons_cons, List.getLast?_singleton, Option.some.injEq]
    rw [key _ (by omega)]
    omega
  · simp only [List.getLast?_cons_cons, List.getLast?_singleton, Option.some.injEq]
    rw [key _ (by omega)]
    omega

theorem last_append {α} {a b : List α} (h : b ≠ []) : (a ++ b).getLast? = b.getLast? := by
  rw [List.getLast?_append]
  cases hb : b.getLast? with
  | none => exact absurd (List.getLast?_eq_none_iff.1 hb) h
  | some x => rfl

theorem decode_last (wtf : Bool) : ∀ (n : Nat) (w : Wide), w.length = n → 0 ∉ w →
    (utf16Decode wtf w = [] ↔ w = []) ∧ ((utf16Decode wtf w).getLast? = some 0x5c → w.getLast? = some 0x5c) := by
  intro n
  induction n using Nat.strongRecOn with
  | _ n ih =>
    intro w hn hw
    rcases decode_pieces w hw with rfl | ⟨c, v, hc, rfl⟩ | ⟨s, v, h1, h2, rfl, hd⟩
    · simp [utf16Decode]
    · have hlen := utf16_length c
      have hne : utf16 c ≠ [] := fun h => by rw [h] at hlen; simp at hlen
      rw [List.mem_append, not_or] at hw
      obtain ⟨i1, i2⟩ := ih v.length (by rw [← hn, List.length_append]; omega) v rfl hw.2
      rw [decode_scalar wtf hc]
      refine ⟨by simp [utf8_ne_nil c, hne], ?_⟩
      by_cases hv : v = []
      · subst hv
        have : utf16Decode wtf ([] : Wide) = [] := by rw [utf16Decode]
        rw [this, List.append_nil, List.append_nil]
        intro hl
        have hc2 := hc.2
        rw [(rune_last (by omega)).1 hl]
        decide
      · have hv' : utf16Decode wtf v ≠ [] := fun h => hv (i1.1 h)
        rw [last_append hv', last_append hv]
        exact i2
    · rw [List.mem_cons, not_or] at hw
      have h0 := hd wtf [] (by simp)
      rw [List.append_nil, List.append_nil] at h0
      obtain ⟨i1, i2⟩ := ih v.length (by rw [← hn]; simp) v rfl hw.2
      have hlt : (if wtf then s else 0xfffd) < 0x110000 := by split <;> omega
      rw [h0, appendRune_utf8 hlt]
      refine ⟨by simp [utf8_ne_nil], ?_⟩
      by_cases hv : v = []
      · subst hv
        have : utf16Decode wtf ([] : Wide) = [] := by rw [utf16Decode]
        rw [this, List.append_nil]
        intro hl
        have := (rune_last hlt).1 hl
        split at this <;> omega
      · have hv' : utf16Decode wtf v ≠ [] := fun h => hv (i1.1 h)
        rw [last_append hv', show ∀ a : BitVec 16, a :: v = [a] ++ v from fun _ => rfl, last_append hv]
        exact i2

/-- **C173.** Volumes are told apart: in what `EnumVolumes` lists, let `name` be the name of volume number `k` as Windows gave it (without the
backslashes at its end; `CreateFile` got it), and let no volume before it have that name. Then `OpenDriveByVolumePath` of this name, converted
to a Go string, with or without a backslash, is about that volume: nil if it has no extents, and otherwise it opens the disk of its first one.
The exception above applies. -/
theorem volume_by_name (wtf : Bool) (beyond : Nat → Byte) (fuel : Nat) (env : Prog.Env WReq WRep) (hist t : Prog.Trace WReq WRep)
    (vs : List WinVol) (hrun : OutT.run env hist (winEnumVolumes (utf16Decode wtf) beyond fuel) = (.ret (.ok vs), t))
    (open' : Bytes → WinM (Res WinOpened)) (env' : Prog.Env WReq WRep) (hist' : Prog.Trace WReq WRep) :
    (volumeNames t).length = vs.length ∧ ∀ k name v, (volumeNames t)[k]? = some name → vs[k]? = some v →
      name ∉ (volumeNames t).take k → (wtf = true ∨ ∀ n ∈ volumeNames t, WellFormed n) →
      ∀ path, path = utf16Decode wtf name ∨ path = utf16Decode wtf (name ++ [0x5c]) →
        (v.extents = [] ∧ OutT.run env' hist' (winOpenByVolumePath open' vs path) = (.ret none, [])) ∨
        ∃ x text, v.extents[0]? = some x ∧ DecimalOf x.disk.toNat text ∧
          (OutT.run env' hist' (winOpenByVolumePath open' vs path)).2 =
            (OutT.run env' hist' (open' (ascii "\\\\.\\PhysicalDrive" ++ text))).2 ∧
          ∀ r, (OutT.run env' hist' (winOpenByVolumePath open' vs path)).1 = .ret (some r) ↔
            (OutT.run env' hist' (open' (ascii "\\\\.\\PhysicalDrive" ++ text))).1 = .ret r := by
  obtain ⟨m, f, x, ⟨e, _, h, _⟩ | ⟨_, name0, vs', hs, tv, tc, y, h2, h3, h4, h5, h6⟩⟩ := win_enum_volumes _ _ _ _ _ _ _ hrun
  · cases h
  injection h2 with h2
  subst h2
  obtain ⟨n1, n2⟩ := volumes_names h4 h3.clean
  have htc : volumeNames tc = [] := by
    unfold volumeNames
    rw [List.filterMap_eq_nil_iff]
    intro a ha
    have : a.1 ∈ hs.reverse.map WReq.closeHandle := by rw [← h5]; exact List.mem_map_of_mem ha
    obtain ⟨n, _, hn⟩ := List.mem_map.1 this
    rw [← hn]
  have ht : volumeNames t = volumeNames tv := by
    rw [h6]
    simp only [names_append, htc, List.append_nil]
    show [] ++ volumeNames tv ++ [] = _
    simp
  rw [ht]
  have hlen : vs.length = (volumeNames tv).length := by
    have := congrArg List.length n1
    simpa using this
  refine ⟨hlen.symm, ?_⟩
  intro k name v hk hv hfirst hwf path hpath
  have hpaths : ∀ (j : Nat) (u : WinVol), vs[j]? = some u → ∃ n, (volumeNames tv)[j]? = some n ∧ u.path = utf16Decode wtf n := by
    intro j u hu
    have := congrArg (fun l => l[j]?) n1
    simp only [List.getElem?_map, hu, Option.map_some] at this
    cases hj : (volumeNames tv)[j]? with
    | none => rw [hj] at this; cases this
    | some n =>
      rw [hj] at this
      injection this with this
      exact ⟨n, rfl, this⟩
  obtain ⟨nm, hnm, hvp⟩ := hpaths k v hv
  rw [hk] at hnm
  injection hnm with hnm
  subst hnm
  obtain ⟨c1, c2⟩ := n2 name (List.mem_of_getElem? hk)
  have hbs : utf16Decode wtf (name ++ [0x5c]) = utf16Decode wtf name ++ [0x5c] := by
    rw [decode_more wtf [0x5c] (by simp) _ name rfl c1]
    congr 1
    rw [utf16Decode.eq_def]
    dsimp only
    rw [if_neg (by decide), if_pos (by decide), utf16Decode]
    decide
  rw [hbs] at hpath
  have clast : ∀ n ∈ volumeNames tv, (utf16Decode wtf n).getLast? ≠ some 0x5c :=
    fun n hn hl => (n2 n hn).2 ((decode_last wtf _ n rfl (n2 n hn).1).2 hl)
  have hsame : SamePath v.path path := by
    refine ⟨utf16Decode wtf name, .inr ⟨hvp, clast name (List.mem_of_getElem? hk)⟩, ?_⟩
    rcases hpath with h | h
    · exact .inr ⟨h, clast name (List.mem_of_getElem? hk)⟩
    · exact .inl h
  have hdiff : ∀ (j : Nat) (u : WinVol), j < k → vs[j]? = some u → ¬ SamePath u.path path := by
    intro j u hj hu hsp
    obtain ⟨n, hn, hup⟩ := hpaths j u hu
    have hnmem := List.mem_of_getElem? hn
    have hne : n ≠ name := by
      rintro rfl
      apply hfirst
      refine List.mem_of_getElem? (i := j) ?_
      rw [List.getElem?_take, if_pos hj, hn]
    apply hne
    apply text_distinct wtf n name (n2 n hnmem).1 c1 (hwf.imp id (fun h => ⟨h n hnmem, h name (List.mem_of_getElem? hk)⟩))
    obtain ⟨c, hc1, hc2⟩ := hsp
    rw [hup] at hc1
    rcases hc1 with hc1 | ⟨hc1, hcl⟩
    · exact absurd (by rw [hc1]; simp) (clast n hnmem)
    · rw [hc1]
      rcases hc2 with hc2 | ⟨hc2, _⟩
      · rcases hpath with h | h
        · exact absurd (by rw [← h, hc2]; simp) (clast name (List.mem_of_getElem? hk))
        · rw [hc2] at h
          exact List.append_cancel_right h
      · rcases hpath with h | h
        · rw [← hc2, h]
        · exact absurd (by rw [← hc2, h]; simp) hcl
  rcases win_open_by_volume open' vs path env' hist' with ⟨hno, _⟩ | ⟨before, u, after, hsplit, hu, hbefore, hres⟩
  · exact absurd hsame (hno v (List.mem_of_getElem? hv))
  · have hidx : before.length = k := by
      apply Nat.le_antisymm
      · apply Nat.le_of_not_lt
        intro hlt
        have : before[k]? = some v := by
          rw [hsplit, List.getElem?_append_left hlt] at hv
          exact hv
        exact hbefore v (List.mem_of_getElem? this) hsame
      · apply Nat.le_of_not_lt
        intro hlt
        refine hdiff before.length u hlt ?_ hu
        rw [hsplit, List.getElem?_append_right (Nat.le_refl _), Nat.sub_self]
        rfl
    have huv : u = v := by
      rw [hsplit, ← hidx, List.getElem?_append_right (Nat.le_refl _), Nat.sub_self] at hv
      simpa using hv
    subst huv
    exact hres

/-! ## Non-vacuity -/

instance (c : Nat) : Decidable (Scalar c) := by unfold Scalar; infer_instance

/-- "Aé😀": three characters, one, two and four bytes of UTF-8, four 16-bit units; what follows the NUL is not read. -/
example : ∀ c ∈ [0x41, 0xe9, 0x1f600], Scalar c := by decide
example : [0x41, 0xe9, 0x1f600].flatMap utf16 = [0x41, 0xe9, 0xd83d, 0xde00] ∧
    [0x41, 0xe9, 0x1f600].flatMap utf8 = [0x41, 0xc3, 0xa9, 0xf0, 0x9f, 0x98, 0x80] := by decide +kernel
example (wtf : Bool) : utf16Decode wtf [0x41, 0xe9, 0xd83d, 0xde00, 0, 0x42] = [0x41, 0xc3, 0xa9, 0xf0, 0x9f, 0x98, 0x80] :=
  text_received wtf [0x41, 0xe9, 0x1f600] (by decide) [0, 0x42] (.inr rfl)
example (wtf : Bool) : utf16FromString wtf [0x41, 0xc3, 0xa9, 0xf0, 0x9f, 0x98, 0x80] = some [0x41, 0xe9, 0xd83d, 0xde00] ∧
    utf16FromString wtf [0x41, 0] = none :=
  ⟨(text_given wtf).1 [0x41, 0xe9, 0x1f600] (by decide), (text_given wtf).2 _ (by decide)⟩
/-- An unpaired surrogate comes back only in the later versions of Go. -/
example : utf16FromString true (utf16Decode true [0x41, 0xd83d, 0x42]) = some [0x41, 0xd83d, 0x42] ∧
    utf16FromString false (utf16Decode false [0x41, 0xd83d, 0x42]) = some [0x41, 0xfffd, 0x42] ∧
    ¬ WellFormed [0x41, 0xd83d, 0x42] ∧ WellFormed [0x41, 0xd83d, 0xde00] := by
  refine ⟨by decide +kernel, by decide +kernel, ?_, ?_⟩
  · intro h
    have := text_round_trip false [0x41, 0xd83d, 0x42] (by decide) (.inr h)
    exact absurd this (by decide +kernel)
  · exact ⟨[0x41, 0x1f600], by decide, by decide⟩
/-- Of the sample machine's three devices ("A", one without an interface, "C"), the first is opened under the name its detail record has. -/
example : (match OutT.run sampleWindows [] (winEnumDrives sampleRun (winOpeners 0 0) (utf16Decode true) 9) with
    | (.ret (.ok _), t) => t.filterMap (fun x => match x.1 with | .openDevice p => utf16FromString true p | _ => none)
    | _ => []) = [[0x41], [0x43]] := by decide +kernel
/-- Two volumes, "V1" and "V2"; their names differ, and "V1" has two extents on the disks 2 and 3. -/
example : (match OutT.run sampleVolumes [] (winEnumVolumes (utf16Decode true) (fun _ => 0) 2) with
    | (.ret (.ok vs), t) => (volumeNames t, vs.map (fun v => (v.path, v.extents.map (·.disk))))
    | _ => ([], [])) = ([[0x56, 0x31], [0x56, 0x32]], [(ascii "V1", [2, 3]), (ascii "V2", [])]) := by decide +kernel

end Dparm
