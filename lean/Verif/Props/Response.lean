import Verif.Lemmas.Response
import Verif.Lemmas.Token
/-!
# Properties of the response parser (C10 to C14, C17)

`r.buf` is the 2048-byte response; `after` is the memory behind it.
-/
namespace Dparm
open Spec

/-- The sub-packet length a response announces: big-endian at offset 52. -/
def announcedPayload (buf : Bytes) : Nat := beVal (slice buf 52 4)

theorem commit_eq (r : Resp) (after : Nat → Byte) (hb : r.buf.length = 2048) :
    r.commit after = if 56 + announcedPayload r.buf > 2048 then (r, some Tok.illegalData)
      else (⟨r.buf, scan (memAt r.buf after) (56 + announcedPayload r.buf)
                (announcedPayload r.buf + 1) 56 []⟩, none) := by
  unfold Resp.commit
  simp only [be32_toNat r.buf 52 (by omega)]
  have h : 56 + beVal (slice r.buf 52 4) - 56 + 1 = announcedPayload r.buf + 1 := by
    simp only [announcedPayload]; omega
  rw [h]
  rfl

/-- C10: parsing (a total function, so it terminates on every input) reports an error exactly when
56 + announced length exceeds 2048; on error nothing changes, on success the buffer is unchanged. The
bound on loop iterations in the model is never the reason to stop (`scan_fuel`). -/
theorem commit_decision (r : Resp) (after : Nat → Byte) (hb : r.buf.length = 2048) :
    ((r.commit after).2 ≠ none ↔ 56 + announcedPayload r.buf > 2048) ∧
    ((r.commit after).2 ≠ none → (r.commit after).1 = r) ∧
    (r.commit after).1.buf = r.buf ∧
    (∀ f, announcedPayload r.buf ≤ f → (r.commit after).2 = none →
      (r.commit after).1.tokens
        = scan (memAt r.buf after) (56 + announcedPayload r.buf) f 56 []) := by
  rw [commit_eq r after hb]
  split
  · simp_all
  · rename_i h
    refine ⟨by simpa using h, by simp, rfl, ?_⟩
    intro f hf _
    exact scan_fuel _ _ _ _ _ (by omega) (by omega) _

/-- C11: when parsing succeeds, the tokens are the visible tokens of the (unique) contiguous tiling of
memory from offset 56 up to or past the announced end. -/
theorem commit_tiles (r : Resp) (after : Nat → Byte) (hb : r.buf.length = 2048)
    (hok : (r.commit after).2 = none) :
    ∃ spans, Tiles (memAt r.buf after) (56 + announcedPayload r.buf) 56 spans ∧
      (r.commit after).1.tokens = visible (memAt r.buf after) spans := by
  rw [commit_eq r after hb] at hok ⊢
  split at hok
  · cases hok
  · rename_i h
    rw [if_neg h]
    obtain ⟨sp, h1, h2⟩ := exists_tiles (memAt r.buf after) (56 + announcedPayload r.buf) 56
    exact ⟨sp, h1, by simp [scan_tiles h1 (announcedPayload r.buf + 1) (by omega)]⟩

/-- C11, reading of `Tiles`: no token is empty, none starts at or past the end, each starts where the
previous one ended, the first starts at `i`, only the last can pass the end, and together they reach it. -/
theorem tiles_meaning {m : Nat → Byte} {e i : Nat} {spans : List (Nat × Nat)} (h : Tiles m e i spans) :
    (∀ s ∈ spans, 1 ≤ s.2 ∧ i ≤ s.1 ∧ s.1 < e) ∧
    (∀ k (hk : k + 1 < spans.length), spans[k + 1].1 = spans[k].1 + spans[k].2) ∧
    (∀ k (hk : k + 1 < spans.length), spans[k].1 + spans[k].2 < e) ∧
    (∀ (hk : 0 < spans.length), spans[0].1 = i) ∧
    e ≤ spans.foldl (fun _ s => s.1 + s.2) i := by
  induction h with
  | nil h => simp [h]
  | @cons i rest h t ih =>
    obtain ⟨h1, h2, h3, h4, h5⟩ := ih
    have hp := announcedLen_pos m i
    refine ⟨?_, ?_, ?_, ?_, ?_⟩
    · intro s hs
      rcases List.mem_cons.1 hs with rfl | hs
      · exact ⟨hp, Nat.le_refl _, h⟩
      · have := h1 s hs; omega
    · intro k hk
      cases k with
      | zero => simpa using h4 (by simpa using hk)
      | succ k => simpa using h2 k (by simpa using hk)
    · intro k hk
      cases k with
      | zero =>
        have h0 : 0 < rest.length := by simpa using hk
        have := h1 rest[0] (List.getElem_mem h0)
        rw [h4 h0] at this
        simpa using this.2.2
      | succ k => simpa using h3 k (by simpa using hk)
    · simp
    · simpa using h5

theorem holdsAt_memAt (buf : Bytes) (after : Nat → Byte) (i : Nat) (bs : Bytes)
    (h : slice buf i bs.length = bs) (hl : i + bs.length ≤ buf.length) :
    HoldsAt (memAt buf after) i bs := by
  intro k hk
  have h1 : (slice buf i bs.length)[k]? = bs[k]? := by rw [h]
  rw [getElem?_slice, if_pos hk, List.getElem?_eq_getElem hk,
    List.getElem?_eq_getElem (show i + k < buf.length by omega)] at h1
  unfold memAt
  rw [dif_pos (show i + k < buf.length by omega)]
  exact Option.some.inj h1

/-- A response carrying the token list `ts` and nothing else in its payload. -/
def Carries (buf : Bytes) (ts : List Token) : Prop :=
  buf.length = 2048 ∧ 56 + (encodeAll ts).length ≤ 2048 ∧
  announcedPayload buf = (encodeAll ts).length ∧
  slice buf 56 (encodeAll ts).length = encodeAll ts

/-- C13: parsing inverts the grammar. For every list of well-formed tokens that fits, the parser
returns exactly these tokens' encodings in order, with empty atoms removed, whatever the memory behind
the buffer contains. -/
theorem commit_of_encoded (r : Resp) (after : Nat → Byte) (ts : List Token) (hw : ∀ t ∈ ts, t.WF)
    (hc : Carries r.buf ts) :
    (r.commit after).2 = none ∧
    (r.commit after).1.tokens = (ts.filter (fun t => t ≠ Token.emptyAtom)).map Token.encode := by
  obtain ⟨hb, hl, hp, hs⟩ := hc
  obtain ⟨sp, ht, hv⟩ := tiles_encodeAll (memAt r.buf after) ts 56 (56 + announcedPayload r.buf) hw
    (holdsAt_memAt _ _ _ _ hs (by omega)) (by omega)
  have hnone : (r.commit after).2 = none := by
    rw [commit_eq r after hb, if_neg (by omega)]
  obtain ⟨sp', ht', hv'⟩ := commit_tiles r after hb hnone
  rw [Tiles.unique ht' ht] at hv'
  exact ⟨hnone, by rw [hv', hv]⟩

/-- C12, safe case: if the announced payload is exactly covered (the last token ends at the announced
end), the result does not depend on the memory behind the buffer and every token is a piece of
the announced payload. -/
theorem commit_inside_when_complete (r : Resp) (after after' : Nat → Byte) (hb : r.buf.length = 2048)
    (hok : (r.commit after).2 = none) (spans : List (Nat × Nat))
    (ht : Tiles (memAt r.buf after) (56 + announcedPayload r.buf) 56 spans)
    (hend : spans.foldl (fun _ s => s.1 + s.2) 56 = 56 + announcedPayload r.buf) :
    (r.commit after').1.tokens = (r.commit after).1.tokens ∧
    ∀ t ∈ (r.commit after).1.tokens, ∃ a n, 56 ≤ a ∧ a + n ≤ 56 + announcedPayload r.buf ∧
      t = slice r.buf a n := by
  have hle : 56 + announcedPayload r.buf ≤ 2048 := by
    have := (commit_decision r after hb).1
    rw [hok] at this
    simpa using this
  obtain ⟨sp, hsp, hv⟩ := commit_tiles r after hb hok
  rw [Tiles.unique hsp ht] at hv
  -- every span ends at or before the end
  have hin : ∀ s ∈ spans, s.1 + s.2 ≤ 56 + announcedPayload r.buf := by
    have gen : ∀ {e i : Nat} {l : List (Nat × Nat)}, Tiles (memAt r.buf after) e i l →
        l.foldl (fun _ s => s.1 + s.2) i = e → ∀ s ∈ l, s.1 + s.2 ≤ e := by
      intro e i l hl
      induction hl with
      | nil => simp
      | @cons i rest h t ih =>
        intro hf s hs
        rcases List.mem_cons.1 hs with rfl | hs
        · cases t with
          | nil _ => simpa using Nat.le_of_eq hf
          | cons h2 _ => exact Nat.le_of_lt h2
        · exact ih (by simpa using hf) s hs
    exact gen ht hend
  have hmem : ∀ i, i < 2048 → memAt r.buf after' i = memAt r.buf after i := by
    intro i hi
    simp [memAt, hb, hi]
  have hlen : ∀ i, i < 56 + announcedPayload r.buf →
      i + announcedLen (memAt r.buf after) i ≤ 56 + announcedPayload r.buf →
      announcedLen (memAt r.buf after') i = announcedLen (memAt r.buf after) i := by
    intro i hi hlen
    unfold announcedLen at hlen ⊢
    dsimp only at hlen ⊢
    rw [hmem i (by omega)]
    by_cases h1 : (memAt r.buf after i).toNat < 128
    · simp [h1]
    by_cases h2 : (memAt r.buf after i).toNat < 192
    · simp [h1, h2]
    by_cases h3 : (memAt r.buf after i).toNat < 224
    · simp only [h1, h2, h3, if_true, if_false] at hlen ⊢
      rw [hmem (i + 1) (by omega)]
    by_cases h4 : (memAt r.buf after i).toNat < 240
    · simp only [h1, h2, h3, h4, if_true, if_false] at hlen ⊢
      rw [hmem (i + 1) (by omega), hmem (i + 2) (by omega), hmem (i + 3) (by omega)]
    · simp [h1, h2, h3, h4]
  have ht' : Tiles (memAt r.buf after') (56 + announcedPayload r.buf) 56 spans := by
    have gen : ∀ {i : Nat} {l : List (Nat × Nat)},
        Tiles (memAt r.buf after) (56 + announcedPayload r.buf) i l →
        (∀ s ∈ l, s.1 + s.2 ≤ 56 + announcedPayload r.buf) →
        Tiles (memAt r.buf after') (56 + announcedPayload r.buf) i l := by
      intro i l hl
      induction hl with
      | nil h => intro _; exact .nil h
      | @cons i rest h t ih =>
        intro hs
        have hi := hlen i h (by simpa using hs _ (List.mem_cons_self ..))
        have := Tiles.cons (m := memAt r.buf after') h
          (by rw [hi]; exact ih (fun s hs' => hs s (List.mem_cons_of_mem _ hs')))
        rwa [hi] at this
    exact gen ht hin
  have hok' : (r.commit after').2 = none := by
    rw [commit_eq r after' hb, if_neg (by omega)]
  obtain ⟨sp', hsp', hv'⟩ := commit_tiles r after' hb hok'
  rw [Tiles.unique hsp' ht'] at hv'
  have hsub : ∀ s ∈ spans, bytesAt (memAt r.buf after) s = slice r.buf s.1 s.2 ∧
      bytesAt (memAt r.buf after') s = slice r.buf s.1 s.2 ∧
      isEmptyAtom (memAt r.buf after') s = isEmptyAtom (memAt r.buf after) s := by
    intro s hs
    have hs1 := hin s hs
    have hpos := (tiles_meaning ht).1 s hs
    refine ⟨?_, ?_, ?_⟩
    · apply List.ext_getElem?
      intro k
      rw [getElem?_slice]
      by_cases hk : k < s.2
      · simp [bytesAt, hk, memAt, hb, show s.1 + k < 2048 by omega]
      · simp [bytesAt, hk]
    · apply List.ext_getElem?
      intro k
      rw [getElem?_slice]
      by_cases hk : k < s.2
      · simp [bytesAt, hk, memAt, hb, show s.1 + k < 2048 by omega]
      · simp [bytesAt, hk]
    · unfold isEmptyAtom
      rw [hmem s.1 (by omega)]
  constructor
  · rw [hv, hv']
    unfold visible
    have hf : spans.filter (fun s => !isEmptyAtom (memAt r.buf after') s)
        = spans.filter (fun s => !isEmptyAtom (memAt r.buf after) s) :=
      List.filter_congr (fun s hs => by rw [(hsub s hs).2.2])
    rw [hf]
    apply List.map_congr_left
    intro s hs
    have := hsub s (List.mem_filter.1 hs).1
    rw [this.1, this.2.1]
  · intro t ht1
    rw [hv] at ht1
    obtain ⟨s, hs, rfl⟩ := List.mem_map.1 ht1
    have hs' := (List.mem_filter.1 hs).1
    exact ⟨s.1, s.2, ((tiles_meaning ht).1 s hs').2.1, hin s hs', (hsub s hs').1⟩

theorem tiles_last {m : Nat → Byte} {e i : Nat} {spans : List (Nat × Nat)} (h : Tiles m e i spans)
    (hi : i ≤ e) (hend : e < spans.foldl (fun _ s => s.1 + s.2) i) :
    ∃ init a n, spans = init ++ [(a, n)] ∧ a < e ∧ e < a + n := by
  induction h with
  | nil h => simp at hend; omega
  | @cons i rest h t ih =>
    rw [List.foldl_cons] at hend
    cases t with
    | nil h2 => exact ⟨[], i, _, rfl, h, by simpa using hend⟩
    | cons h2 t2 =>
      obtain ⟨init, a, n, h3, h4, h5⟩ := ih (by omega) hend
      exact ⟨(i, announcedLen m i) :: init, a, n, by rw [h3]; rfl, h4, h5⟩

/-- C12, unsafe case in general: whenever the tokens do not end exactly where the payload does, the last token handed out
holds bytes past the announced end, and whatever memory lies behind the buffer where it reaches past that. -/
theorem commit_overread (r : Resp) (after : Nat → Byte) (hb : r.buf.length = 2048) (hok : (r.commit after).2 = none)
    (spans : List (Nat × Nat)) (ht : Tiles (memAt r.buf after) (56 + announcedPayload r.buf) 56 spans)
    (hend : spans.foldl (fun _ s => s.1 + s.2) 56 ≠ 56 + announcedPayload r.buf) :
    ∃ init tok a, (r.commit after).1.tokens = init ++ [tok] ∧ 56 ≤ a ∧ a < 56 + announcedPayload r.buf ∧
      56 + announcedPayload r.buf < a + tok.length ∧
      ∀ j, j < tok.length → (∀ hj : a + j < r.buf.length, tok[j]? = some r.buf[a + j]) ∧
        (2048 ≤ a + j → tok[j]? = some (after (a + j - 2048))) := by
  obtain ⟨sp, hsp, hv⟩ := commit_tiles r after hb hok
  rw [Tiles.unique hsp ht] at hv
  have hm := tiles_meaning ht
  obtain ⟨init, a, n, h1, h2, h3⟩ := tiles_last ht (by omega) (by have := hm.2.2.2.2; omega)
  subst h1
  have ha := (hm.1 (a, n) (by simp)).2.1
  refine ⟨visible (memAt r.buf after) init, bytesAt (memAt r.buf after) (a, n), a, ?_, ha, h2, by simpa [bytesAt] using h3, ?_⟩
  · rw [hv]
    unfold visible
    rw [List.filter_append, List.map_append]
    have : isEmptyAtom (memAt r.buf after) (a, n) = false := by
      have hn : (n == 1) = false := by rw [beq_eq_false_iff_ne]; omega
      simp [isEmptyAtom, hn]
    simp [this]
  · intro j hj
    simp only [bytesAt, List.length_map, List.length_range] at hj
    constructor
    · intro hl
      simp [bytesAt, hj, memAt, hl]
    · intro hl
      simp [bytesAt, hj, memAt, hb, show ¬ a + j < 2048 by omega]

theorem encodeAll_replicate_tiny (n : Nat) :
    encodeAll (List.replicate n (Token.tiny false 0)) = zeros n := by
  induction n with
  | zero => rfl
  | succ n ih =>
    simp only [List.replicate_succ, encodeAll, List.flatMap_cons]
    rw [show (List.replicate n (Token.tiny false 0)).flatMap Token.encode = zeros n from ih]
    rfl

/-- A response made of zero bytes whose last byte (offset 2047) is the header of a short atom of 15
bytes: announced length 1992 (0x7c8), so the payload reaches exactly to the buffer's end. -/
def overreadBuf : Bytes :=
  zeros 52 ++ [0, 0, 0x07, 0xc8] ++ zeros 1991 ++ [0x8f]

theorem tiles_append_encoded (m : Nat → Byte) (ts : List Token) (i e : Nat) (rest : List (Nat × Nat))
    (hw : ∀ t ∈ ts, t.WF) (hm : HoldsAt m i (encodeAll ts)) (he : i + (encodeAll ts).length ≤ e)
    (hr : Tiles m e (i + (encodeAll ts).length) rest) :
    ∃ spans, Tiles m e i (spans ++ rest) ∧
      visible m spans = (ts.filter (fun t => t ≠ Token.emptyAtom)).map Token.encode := by
  induction ts generalizing i with
  | nil => exact ⟨[], by simpa [encodeAll] using hr, rfl⟩
  | cons t ts ih =>
    simp only [encodeAll, List.flatMap_cons] at hm he hr
    obtain ⟨h1, h2⟩ := HoldsAt.append hm
    have hwt := hw t (List.mem_cons_self ..)
    have hl := announcedLen_encode m i t hwt h1
    have hp := encode_length_pos t
    simp only [List.length_append] at he hr
    obtain ⟨sp, hs, hv⟩ := ih (i + t.encode.length) (fun t' ht' => hw t' (List.mem_cons_of_mem _ ht')) h2
      (by simp only [encodeAll]; omega) (by simpa [encodeAll, Nat.add_assoc] using hr)
    refine ⟨(i, announcedLen m i) :: sp, .cons (by omega) (by rw [hl]; exact hs), ?_⟩
    have hem := isEmptyAtom_encode m i t hwt h1
    unfold visible at hv ⊢
    rw [hl]
    by_cases ht : t = Token.emptyAtom
    · simp only [ht, decide_true] at hem
      rw [ht] at hl ⊢
      simp only [List.filter_cons, hem]
      simp [hv]
    · simp only [ht, decide_false] at hem
      simp only [List.filter_cons, hem]
      simp [hv, ht, bytesAt_of_holds _ _ _ h1]

/-- C12, unsafe case: for this response (accepted, all lengths in range) the parser hands out a token
holding the first 15 bytes of memory behind the 2048-byte buffer, whatever they are. -/
theorem commit_leaks_adjacent_memory (r : Resp) (hr : r.buf = overreadBuf) (after : Nat → Byte) :
    (r.commit after).2 = none ∧
    (0x8f :: (List.range 15).map after) ∈ (r.commit after).1.tokens := by
  have hb : r.buf.length = 2048 := by rw [hr]; simp [overreadBuf]
  have hp : announcedPayload r.buf = 1992 := by
    rw [hr]
    unfold announcedPayload overreadBuf slice
    rw [List.append_assoc, List.append_assoc,
      List.drop_append_of_le_length (by simp), List.drop_of_length_le (by simp)]
    rfl
  have hnone : (r.commit after).2 = none := by
    rw [commit_eq r after hb, if_neg (by omega)]
  refine ⟨hnone, ?_⟩
  have hlast : memAt r.buf after 2047 = 0x8f := by
    unfold memAt
    rw [dif_pos (by omega)]
    simp only [hr, overreadBuf]
    rw [List.getElem_append_right (by simp)]
    simp
  have hlen : announcedLen (memAt r.buf after) 2047 = 16 := by
    unfold announcedLen; rw [hlast]; rfl
  have ht2047 : Tiles (memAt r.buf after) (56 + announcedPayload r.buf) 2047 [(2047, 16)] := by
    have := Tiles.cons (m := memAt r.buf after) (e := 56 + announcedPayload r.buf) (i := 2047)
      (rest := []) (by omega) (.nil (by rw [hlen]; omega))
    rwa [hlen] at this
  have hh : HoldsAt (memAt r.buf after) 56 (encodeAll (List.replicate 1991 (Token.tiny false 0))) := by
    rw [encodeAll_replicate_tiny]
    intro k hk
    simp only [zeros_length] at hk
    unfold memAt
    rw [dif_pos (by omega)]
    simp only [hr, overreadBuf]
    rw [List.getElem_append_left (by simp; omega), List.getElem_append_right (by simp)]
    simp
  obtain ⟨sp, hsp, -⟩ := tiles_append_encoded (memAt r.buf after) _ 56 (56 + announcedPayload r.buf)
    [(2047, 16)] (by intro t ht; rw [(List.mem_replicate.1 ht).2]; decide) hh
    (by rw [encodeAll_replicate_tiny, zeros_length]; omega)
    (by rw [encodeAll_replicate_tiny, zeros_length]; exact ht2047)
  obtain ⟨sp', hsp', hv⟩ := commit_tiles r after hb hnone
  rw [Tiles.unique hsp' hsp] at hv
  rw [hv]
  unfold visible
  rw [List.mem_map]
  refine ⟨(2047, 16), ?_, ?_⟩
  · rw [List.mem_filter]
    exact ⟨by simp, by simp [isEmptyAtom]⟩
  · unfold bytesAt
    rw [show (16 : Nat) = 15 + 1 from rfl, List.range_succ_eq_map]
    simp only [List.map_cons, Nat.add_zero, hlast, List.map_map]
    congr 1
    apply List.map_congr_left
    intro k _
    simp only [Function.comp_apply, memAt]
    rw [dif_neg (by rw [hb]; omega), hb, show 2047 + Nat.succ k - 2048 = k by omega]

/-- Consequence: the parse result depends on memory the drive never sent. -/
theorem commit_not_a_function_of_response :
    ∃ (r : Resp) (a a' : Nat → Byte), r.buf.length = 2048 ∧
      (r.commit a).1.tokens ≠ (r.commit a').1.tokens := by
  refine ⟨⟨overreadBuf, []⟩, fun _ => 0, fun _ => 1, by simp [overreadBuf], ?_⟩
  intro h
  have h1 := (commit_leaks_adjacent_memory ⟨overreadBuf, []⟩ rfl (fun _ => 0)).2
  have hb : (⟨overreadBuf, []⟩ : Resp).buf.length = 2048 := by simp [overreadBuf]
  obtain ⟨sp, hsp, hv⟩ := commit_tiles ⟨overreadBuf, []⟩ (fun _ => 1) hb
    (commit_leaks_adjacent_memory ⟨overreadBuf, []⟩ rfl (fun _ => 1)).1
  rw [h, hv] at h1
  unfold visible at h1
  obtain ⟨s, hs, he⟩ := List.mem_map.1 h1
  -- a visible token starting with 8f of 16 bytes must start at 2047, and then holds ones
  have hlen : s.2 = 16 := by
    have := congrArg List.length he
    simpa [bytesAt] using this
  have hs1 := ((tiles_meaning hsp).1 s (List.mem_filter.1 hs).1).2.2
  have hp : announcedPayload (⟨overreadBuf, []⟩ : Resp).buf = 1992 := by
    show announcedPayload overreadBuf = 1992
    unfold announcedPayload overreadBuf slice
    rw [List.append_assoc, List.append_assoc,
      List.drop_append_of_le_length (by simp), List.drop_of_length_le (by simp)]
    rfl
  rw [hp] at hs1
  have hstart : memAt overreadBuf (fun _ => 1) s.1 = 0x8f := by
    have h2 : (bytesAt (memAt overreadBuf (fun _ => 1)) s)[0]? = some 0x8f := by
      have : bytesAt (memAt overreadBuf (fun _ => 1)) s = _ := he
      rw [this]; rfl
    have h3 : (bytesAt (memAt overreadBuf (fun _ => 1)) s)[0]? = some (memAt overreadBuf (fun _ => 1) s.1) := by
      simp [bytesAt, hlen]
    rw [h3] at h2
    exact Option.some.inj h2
  have h56 := ((tiles_meaning hsp).1 s (List.mem_filter.1 hs).1).2.1
  have hpos : s.1 = 2047 := by
    refine Decidable.byContradiction (fun hne => ?_)
    have : memAt overreadBuf (fun _ => 1) s.1 = 0 := by
      unfold memAt
      rw [dif_pos (by simp [overreadBuf]; omega)]
      simp only [overreadBuf]
      rw [List.getElem_append_left (by simp; omega), List.getElem_append_right (by simp; omega)]
      simp
    rw [this] at hstart
    exact absurd hstart (by decide)
  have h2 : (bytesAt (memAt overreadBuf (fun _ => 1)) s)[1]? = some 0 := by
    have : bytesAt (memAt overreadBuf (fun _ => 1)) s = _ := he
    rw [this]; rfl
  have h3 : (bytesAt (memAt overreadBuf (fun _ => 1)) s)[1]? = some 1 := by
    simp [bytesAt, hlen, hpos, memAt, overreadBuf]
  rw [h3] at h2
  exact absurd h2 (by decide)

/-- C14: `GetToken` returns nil exactly from the count on, the i-th token below it, and panics exactly
for negative indexes. -/
theorem getToken_exact (r : Resp) (i : Int) :
    (r.getToken i = .panic ↔ i < 0) ∧
    (r.getToken i = .ret none ↔ r.getTokenCount ≤ i) ∧
    (∀ (n : Nat) (hn : n < r.tokens.length), r.getToken n = .ret (some r.tokens[n])) := by
  unfold Resp.getToken Resp.getTokenCount
  refine ⟨?_, ?_, ?_⟩
  · by_cases h1 : i ≥ r.tokens.length
    · rw [if_pos h1]
      simp only [reduceCtorEq, false_iff, Int.not_lt]
      omega
    · rw [if_neg h1]
      by_cases h2 : i < 0
      · simp [h2]
      · simp [h2]
  · by_cases h1 : i ≥ r.tokens.length
    · simp [h1]
    · rw [if_neg h1]
      by_cases h2 : i < 0
      · simp [h2]; omega
      · rw [if_neg h2]
        simp only [P.ret.injEq, List.getElem?_eq_none_iff]
        omega
  · intro n hn
    rw [if_neg (by omega), if_neg (by omega)]
    simp [hn]

/-- What the accessors see of a token: the payload after its 1/2/4-byte header. -/
def payloadOf : Bytes → Res Bytes
  | [] => .panic
  | b :: rest =>
    if b.toNat < 128 then .err Tok.illegalData
    else if b.toNat < 192 then .ok rest
    else if b.toNat < 224 then .ok (rest.drop 1)
    else if b.toNat < 240 then .ok (rest.drop 3)
    else .ok []

/-- A parsed token is never shorter than its header. -/
theorem parsed_token_shape (r : Resp) (after : Nat → Byte) (hb : r.buf.length = 2048)
    (hok : (r.commit after).2 = none) (t : Bytes) (ht : t ∈ (r.commit after).1.tokens) :
    ∃ b rest, t = b :: rest ∧ (192 ≤ b.toNat → b.toNat < 224 → 1 ≤ rest.length) ∧
      (224 ≤ b.toNat → b.toNat < 240 → 3 ≤ rest.length) := by
  obtain ⟨sp, hsp, hv⟩ := commit_tiles r after hb hok
  rw [hv] at ht
  obtain ⟨s, hs, rfl⟩ := List.mem_map.1 ht
  have hs' := (List.mem_filter.1 hs).1
  have hlen : ∀ {e i : Nat} {l : List (Nat × Nat)}, Tiles (memAt r.buf after) e i l →
      ∀ s ∈ l, s.2 = announcedLen (memAt r.buf after) s.1 := by
    intro e i l hl
    induction hl with
    | nil => simp
    | cons h t ih =>
      intro s hs
      rcases List.mem_cons.1 hs with rfl | hs
      · rfl
      · exact ih s hs
  have hl := hlen hsp s hs'
  have hp := announcedLen_pos (memAt r.buf after) s.1
  refine ⟨memAt r.buf after s.1, (List.range (s.2 - 1)).map (fun k => memAt r.buf after (s.1 + (k + 1))),
    ?_, ?_, ?_⟩
  · unfold bytesAt
    rw [show s.2 = (s.2 - 1) + 1 by omega, List.range_succ_eq_map]
    simp
  · intro h1 h2
    simp only [List.length_map, List.length_range]
    rw [hl]
    unfold announcedLen
    simp only [show ¬ (memAt r.buf after s.1).toNat < 128 by omega,
      show ¬ (memAt r.buf after s.1).toNat < 192 by omega, h2, if_true, if_false]
    omega
  · intro h1 h2
    simp only [List.length_map, List.length_range]
    rw [hl]
    unfold announcedLen
    simp only [show ¬ (memAt r.buf after s.1).toNat < 128 by omega,
      show ¬ (memAt r.buf after s.1).toNat < 192 by omega,
      show ¬ (memAt r.buf after s.1).toNat < 224 by omega, h2, if_true, if_false]
    omega

/-- C17: on every token the parser returns, no accessor panics; `GetString` and `GetBytes` return the
payload (an error for tiny atoms, empty for control tokens). -/
theorem accessors_never_panic (r : Resp) (after : Nat → Byte) (hb : r.buf.length = 2048)
    (hok : (r.commit after).2 = none) (t : Bytes) (ht : t ∈ (r.commit after).1.tokens) :
    Tok.type t ≠ .panic ∧ Tok.getUint64 t ≠ .panic ∧
    Tok.getString t = payloadOf t ∧ Tok.getBytes t = payloadOf t ∧ payloadOf t ≠ .panic := by
  obtain ⟨b, rest, rfl, hm, hl⟩ := parsed_token_shape r after hb hok t ht
  have hg : Tok.getString (b :: rest) = payloadOf (b :: rest) := by
    simp only [Tok.getString, payloadOf, clear_80]
    by_cases h1 : b.toNat < 128
    · simp [h1]
    · simp only [h1, decide_false, Bool.false_eq_true, if_false, clear_40 b (Nat.not_lt.1 h1)]
      by_cases h2 : b.toNat < 192
      · simp [h2, Tok.sliceFrom]
      · simp only [h2, decide_false, Bool.false_eq_true, if_false, clear_20 b (Nat.not_lt.1 h2)]
        by_cases h3 : b.toNat < 224
        · have := hm (Nat.not_lt.1 h2) h3
          simp only [h3, decide_true, if_true, Tok.sliceFrom, List.length_cons]
          rw [if_pos (by omega)]; rfl
        · simp only [h3, decide_false, Bool.false_eq_true, if_false, clear_10 b (Nat.not_lt.1 h3)]
          by_cases h4 : b.toNat < 240
          · have := hl (Nat.not_lt.1 h3) h4
            simp only [h4, decide_true, if_true, Tok.sliceFrom, List.length_cons]
            rw [if_pos (by omega)]; rfl
          · simp [h4]
  refine ⟨by simp [Tok.type], ?_, hg, hg, ?_⟩
  · simp only [Tok.getUint64]
    repeat' split
    all_goals simp
  · simp only [payloadOf]
    repeat' split
    all_goals simp

/-- Non-vacuity of C13/C17: the zero response with a 3-byte payload `F0 05 F1` carries three tokens. -/
def sampleBuf : Bytes := zeros 55 ++ [3, 0xf0, 0x05, 0xf1] ++ zeros 1989

example : Carries sampleBuf [Token.startList, .uint 5, Token.endList] := by
  refine ⟨by simp [sampleBuf], by decide, ?_, ?_⟩
  · unfold announcedPayload sampleBuf slice
    rw [List.append_assoc, List.drop_append_of_le_length (by simp), drop_zeros]
    rfl
  · unfold sampleBuf slice
    rw [show zeros 55 ++ [3, 0xf0, 0x05, 0xf1] ++ zeros 1989
      = (zeros 55 ++ [3]) ++ ([0xf0, 0x05, 0xf1] ++ zeros 1989) by simp]
    rw [List.drop_left' (by simp)]
    rfl

end Dparm
