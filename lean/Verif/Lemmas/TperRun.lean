import Verif.Lemmas.WireShort
import Verif.Lemmas.Tper
/-!
# Lemmas: one command on a conforming drive
-/
namespace Dparm
open Spec

theorem unsignedValue_encode (t : Token) (hw : t.WF) {v : Nat} (h : t.asNat = some v) :
    unsignedValue t.encode = some (v % 2 ^ 64) := by
  cases t with
  | tiny s n =>
    cases s with
    | true => cases h
    | false =>
      have hn : n < 64 := hw
      simp only [Token.asNat, Option.some.injEq] at h
      subst h
      simp only [Token.encode, Token.flag, Bool.false_eq_true, if_false, unsignedValue]
      rw [ofNat8_toNat (by omega), if_pos (by omega)]
      congr 1
      omega
  | short b s d =>
    cases b <;> cases s <;> simp only [Token.asNat, Option.some.injEq, reduceCtorEq] at h
    subst h
    have hd : d.length < 16 := hw
    simp only [Token.encode, Token.flag, Bool.false_eq_true, if_false, unsignedValue]
    rw [ofNat8_toNat (by omega), if_neg (by omega), if_pos (by omega)]
  | medium b s d => cases h
  | long b s d => cases h
  | control c => cases h

theorem getString_encode (t : Token) (hw : t.WF) {v : Bytes} (h : t.asBytes = some v) :
    Tok.getString t.encode = .ok v := by
  have c80 := clear_80
  cases t with
  | tiny s n => cases h
  | short b s d =>
    cases b <;> cases s <;> simp only [Token.asBytes, Option.some.injEq, reduceCtorEq] at h
    subst h
    have hd : d.length < 16 := hw
    have e : (BitVec.ofNat 8 (128 + 32 + 0 + d.length)).toNat = 160 + d.length := by
      rw [ofNat8_toNat (by omega)]
    simp only [Token.encode, Token.flag, Bool.false_eq_true, if_false, if_true, Tok.getString]
    rw [clear_80, e, if_neg (by simp; omega), clear_40 _ (by rw [e]; omega), e, if_pos (by simp; omega)]
    simp [Tok.sliceFrom]
  | medium b s d =>
    cases b <;> cases s <;> simp only [Token.asBytes, Option.some.injEq, reduceCtorEq] at h
    subst h
    have hd : d.length < 2048 := hw
    have e : (BitVec.ofNat 8 (192 + 16 + 0 + d.length / 256)).toNat = 208 + d.length / 256 := by
      rw [ofNat8_toNat (by omega)]
    simp only [Token.encode, Token.flag, Bool.false_eq_true, if_false, if_true, Tok.getString]
    rw [clear_80, e, if_neg (by simp; omega), clear_40 _ (by rw [e]; omega), e, if_neg (by simp; omega), clear_20 _ (by rw [e]; omega), e,
      if_pos (by simp; omega)]
    simp [Tok.sliceFrom]
  | long b s d =>
    cases b <;> cases s <;> simp only [Token.asBytes, Option.some.injEq, reduceCtorEq] at h
    subst h
    have hl : (beBytes 3 d.length).length = 3 := beBytes_length _ _
    simp only [Token.encode, Token.flag, Bool.false_eq_true, if_false, if_true, Tok.getString]
    rw [if_neg (by decide), if_neg (by decide), if_neg (by decide), if_pos (by decide)]
    unfold Tok.sliceFrom
    rw [if_pos (by simp [hl])]
    simp only [List.drop_succ_cons]
    rw [List.drop_left' hl]
  | control c => cases h

/-- The verdict on a response that ends in a status list. -/
theorem verdict_status {r : Resp} (hp : Parsed r) (hl : LengthsPresent r) (pre : List Bytes)
    (s x y : Bytes) (hT : r.tokens = pre ++ [[0xf0], s, x, y, [0xf1]])
    (hE : ¬ EndOfSession r) {v : Nat} (hv : unsignedValue s = some v) :
    Session.checkResponse r = if v % 256 = 0 then .ret none else .ret (some (.tcg (v % 256))) := by
  have hS : StatusList r s := ⟨pre, [0xf0], x, y, [0xf1], hT, rfl, rfl⟩
  have huniq : ∀ s', StatusList r s' → s' = s := by
    rintro s' ⟨pre', o, x', y', c, hT', _, _⟩
    rw [hT] at hT'
    have := List.append_inj_right' hT' rfl
    simp only [List.cons.injEq, and_true] at this
    exact this.2.1.symm
  have hval : ∀ v', StatusValue r v' → v' = v := by
    rintro v' ⟨s', h1, h2⟩
    rw [huniq s' h1, hv] at h2
    exact (Option.some.inj h2).symm
  have hver := checkResponse_verdict hp
  generalize Session.checkResponse r = o at hver ⊢
  cases hver with
  | noLengths h => exact absurd hl h
  | noTokens _ h0 => rw [hT] at h0; simp at h0
  | endOfSession _ h0 => exact absurd h0 hE
  | short h =>
    obtain ⟨_, _, h4, _⟩ := h
    rw [hT] at h4; simp at h4
  | noList _ _ _ h => exact absurd hS (h s)
  | notNumber _ _ s' h1 h2 => rw [huniq s' h1, hv] at h2; cases h2
  | failed _ _ v' h1 h2 => rw [hval v' h1] at h2 ⊢; rw [if_neg h2]
  | success _ _ v' h1 h2 => rw [hval v' h1] at h2; rw [if_pos h2]

/-- What the library holds after fetching the answer `a`. -/
structure Fetched (a : Answer) (r : Resp) : Prop where
  parsed : Parsed r
  lengths : LengthsPresent r
  tokens : ∃ ts, a.Encodes ts ∧ (∀ t ∈ ts, t.WF) ∧ r.tokens = ts.map Token.encode

theorem fetched_of_carries {a : Answer} {ts : List Token} (hE : a.Encodes ts) (hne : ts ≠ []) (r : Round)
    (hc : CarriesTokens r.got.data ts) :
    ¬ r.pending ∧ r.parsed.2 = none ∧ Fetched a r.parsed.1 := by
  obtain ⟨us, hw, hf, hlen, hfit, h52, h56, h40, h16, h8⟩ := hc
  have hresp : r.response = r.got.data ++ zeros (2048 - r.got.data.length) := by
    unfold Round.response
    rw [List.take_of_length_le hlen]
  have hsl : ∀ i n, i + n ≤ r.got.data.length → slice r.response i n = slice r.got.data i n := by
    intro i n hi
    unfold slice
    rw [hresp, List.drop_append_of_le_length (by omega), List.take_append_of_le_length (by simp; omega)]
  have hl : r.response.length = 2048 := Round.response_length r
  have hbuf : r.parsed.1.buf = r.response := by
    unfold Round.parsed Resp.commit
    dsimp only
    split <;> rfl
  have hcar : Carries (Resp.mk r.response []).buf us := by
    refine ⟨hl, by omega, ?_, ?_⟩
    · unfold announcedPayload
      rw [hsl 52 4 (by omega), h52]
    · show slice r.response 56 _ = _
      rw [hsl _ _ (by omega), h56]
  obtain ⟨c1, c2⟩ := commit_of_encoded ⟨r.response, []⟩ r.got.behind us hw hcar
  refine ⟨?_, c1, ⟨⟨r.response, r.got.behind, hl, Prod.ext rfl c1⟩, ?_, ts, hE, ?_, ?_⟩⟩
  · rintro ⟨p1, _⟩
    rw [hsl 8 4 (by omega)] at p1
    exact p1 h8
  · refine ⟨?_, ?_, ?_⟩
    · rw [hbuf, hsl 16 4 (by omega)]; exact h16
    · rw [hbuf, hsl 40 4 (by omega)]; exact h40
    · rw [hbuf, hsl 52 4 (by omega), h52]
      have hpos : 1 ≤ us.length := by
        cases us with
        | nil => exact absurd (by simpa using hf.symm) hne
        | cons => simp
      have := encodeAll_length_ge us
      omega
  · intro t ht
    rw [← hf] at ht
    exact hw t ((List.mem_filter.1 ht).1)
  · rw [← hf]; exact c2

theorem encodes_ne_nil {a : Answer} {ts : List Token} (h : a.Encodes ts) : ts ≠ [] := by
  have hst : ∀ {n st}, IsStatus n st → st ≠ [] := by
    rintro n st ⟨s, x, y, rfl, _⟩; simp
  cases a with
  | sync host tper => obtain ⟨sm, m, h, t, more, st, rfl, _⟩ := h; simp
  | done => obtain ⟨st, rfl, _⟩ := h; simp
  | column n v => obtain ⟨c, b, st, rfl, _⟩ := h; simp
  | refused k => obtain ⟨pre, st, rfl, _, h⟩ := h; simp [hst h]

/-- The clock has advanced by more than 10 s. -/
def Slow (env : Prog.Env SecReq SecRep) : Prop := ∃ h h', (env h .now).time + 10000000000 < (env h' .now).time

theorem not_slow {env : Prog.Env SecReq SecRep} (h : Prompt env) : ¬ Slow env := by
  rintro ⟨a, b, hab⟩
  have := h a b
  omega

/-- Fetching an answer: after at most `fuel` rounds the library has it, or it gives up by timeout. -/
theorem poll_conforming {dr : Drive} {W : Nat} {env : Prog.Env SecReq SecRep}
    {st : Prog.Trace SecReq SecRep → DriveState} (hc : Conforming dr W env st) (d : Device)
    (hd : d.baseComId = dr.comId) (h0 : Prog.Trace SecReq SecRep) (a : Answer) :
    ∀ (fuel : Nat) (h : Prog.Trace SecReq SecRep), (st h).answer = some a → (st h).wait < fuel →
    (∃ r, (OutT.run env h (d.poll 1 (env h0 .now).time fuel)).1 = .ret (some r, none) ∧ Fetched a r ∧
      st (h ++ (OutT.run env h (d.poll 1 (env h0 .now).time fuel)).2)
        = { st h with answer := none, wait := 0 }) ∨
    (∃ r, (OutT.run env h (d.poll 1 (env h0 .now).time fuel)).1 = .ret (r, some (.msg "timeout")) ∧ Slow env ∧
      ∃ x w, st (h ++ (OutT.run env h (d.poll 1 (env h0 .now).time fuel)).2)
        = { st h with answer := x, wait := w }) := by
  intro fuel
  induction fuel with
  | zero => intro h _ hw; omega
  | succ f ih =>
    intro h ha hw
    obtain ⟨r, r1, r2, r3, hrun⟩ := run_poll_succ d 1 (env h0 .now).time f env h
    obtain ⟨hA, hhA⟩ : ∃ x, x = h ++ [(SecReq.now, r.clock)] := ⟨_, rfl⟩
    obtain ⟨hB, hhB⟩ : ∃ x, x = hA ++ [(SecReq.sleep 25000000, r.slept)] := ⟨_, rfl⟩
    have hstA : st hA = st h := by rw [hhA, r1]; exact hc.now h
    have hstB : st hB = st h := by rw [hhB, r2, ← hhA]; exact (hc.sleep hA _).trans hstA
    have hfull : h ++ r.exchanges 1 d.baseComId
        = hB ++ [(.sec false false 1 d.baseComId (zeros 2048) 5, r.got)] := by
      rw [hhB, hhA]; simp [Round.exchanges]
    rw [← hhA, ← hhB] at r3
    rw [hd] at r3 hfull hrun
    rw [hrun]
    cases hwait : (st h).wait with
    | zero =>
      obtain ⟨e1, ⟨ts, e2, e3⟩, e4⟩ := hc.ready hB 5 a (by rw [hstB]; exact ha)
        (by rw [hstB]; exact hwait)
      rw [← r3] at e1 e3 e4
      rw [e1]
      dsimp only
      obtain ⟨k1, k2, k3⟩ := fetched_of_carries e2 (encodes_ne_nil e2) r e3
      rw [← hfull, hstB] at e4
      have hfin : st (h ++ r.exchanges 1 dr.comId) = { st h with answer := none, wait := 0 } := by
        rw [e4]
        generalize hst : st h = s at hwait
        cases s
        simp only at hwait
        subst hwait
        rfl
      split
      · rename_i hto
        right
        refine ⟨_, rfl, ⟨h0, h, ?_⟩, none, 0, hfin⟩
        rw [r1] at hto; exact hto
      · rw [if_neg (by rw [morePending_iff]; exact k1)]
        left
        exact ⟨r.parsed.1, by rw [k2], k3, hfin⟩
    | succ w =>
      obtain ⟨e1, e2, e4⟩ := hc.notReady hB 5 a w (by rw [hstB]; exact ha)
        (by rw [hstB]; exact hwait)
      rw [← r3] at e1 e2 e4
      rw [e1]
      dsimp only
      rw [← hfull, hstB] at e4
      have hpend : r.pending := by
        obtain ⟨n1, n2, n3, n4⟩ := e2
        have hresp : r.response = r.got.data ++ zeros (2048 - r.got.data.length) := by
          unfold Round.response
          rw [List.take_of_length_le n2]
        have hsl : ∀ i n, i + n ≤ r.got.data.length → slice r.response i n = slice r.got.data i n := by
          intro i n hi
          unfold slice
          rw [hresp, List.drop_append_of_le_length (by omega), List.take_append_of_le_length (by simp; omega)]
        exact ⟨by rw [hsl 8 4 (by omega)]; exact n3, by rw [hsl 12 4 (by omega)]; exact n4⟩
      split
      · rename_i hto
        right
        refine ⟨_, rfl, ⟨h0, h, ?_⟩, (st h).answer, w, e4⟩
        rw [r1] at hto; exact hto
      · rw [if_pos (by rw [morePending_iff]; exact hpend)]
        have := ih (h ++ r.exchanges 1 dr.comId) (by rw [e4]; exact ha) (by rw [e4]; show w < f; omega)
        rw [e4] at this
        simp only [← List.append_assoc]
        exact this

/-- The error an answer becomes. -/
def answerError : Answer → Option GoErr
  | .refused k => some (.tcg k)
  | _ => none

theorem status_tail {n : Nat} {stt : List Token} (h : IsStatus n stt) (hw : ∀ t ∈ stt, t.WF) :
    ∃ s x y, stt.map Token.encode = [[0xf0], s, x, y, [0xf1]] ∧ unsignedValue s = some (n % 2 ^ 64) := by
  obtain ⟨s, x, y, rfl, hs⟩ := h
  exact ⟨s.encode, x.encode, y.encode, rfl, unsignedValue_encode s (hw s (by simp)) hs⟩

theorem encode_head_fa (t : Token) (hw : t.WF) (h : t ≠ .endOfSession) : t.encode.head? ≠ some 0xfa := by
  intro hh
  have hne : t.encode ≠ [] := by intro h0; rw [h0] at hh; cases hh
  have hd := decodeOne_encode t hw []
  rw [List.append_nil] at hd
  cases he : t.encode with
  | nil => exact hne he
  | cons b bs =>
    rw [he] at hh hd
    simp only [List.head?_cons, Option.some.injEq] at hh
    subst hh
    rw [show decodeOne (0xfa :: bs) = some (.control 10, bs) from rfl] at hd
    simp only [Option.some.injEq, Prod.mk.injEq] at hd
    exact h hd.1.symm

theorem fetched_check {a : Answer} {r : Resp} (hf : Fetched a r)
    (hk : ∀ k, a = .refused k → 0 < k ∧ k < 256) : Session.checkResponse r = .ret (answerError a) := by
  obtain ⟨hp, hl, ts, hE, hw, hT⟩ := hf
  have ok : ∀ (pre : List Token) (stt : List Token) (t0 : Token) (rest : List Token) (n : Nat),
      ts = pre ++ stt → pre = t0 :: rest → t0 ≠ .endOfSession → IsStatus n stt → n < 256 →
      Session.checkResponse r = if n = 0 then .ret none else .ret (some (.tcg n)) := by
    intro pre stt t0 rest n e1 e2 e3 e4 e5
    obtain ⟨s, x, y, h1, h2⟩ := status_tail e4 (fun t ht => hw t (by rw [e1]; simp [ht]))
    have hn : n % 2 ^ 64 = n := Nat.mod_eq_of_lt (by omega)
    have hn2 : n % 256 = n := Nat.mod_eq_of_lt e5
    rw [hn] at h2
    have := verdict_status hp hl (pre.map Token.encode) s x y (by rw [hT, e1, List.map_append, h1])
      (by
        rintro ⟨t, ht, hfa⟩
        rw [hT, e1, e2] at ht
        simp only [List.cons_append, List.map_cons, List.head?_cons, Option.some.injEq] at ht
        rw [← ht] at hfa
        exact encode_head_fa t0 (hw t0 (by rw [e1, e2]; simp)) e3 hfa) h2
    rw [hn2] at this
    exact this
  cases a with
  | sync host tper =>
    obtain ⟨sm, m, h, t, more, stt, e, _, _, _, _, hs⟩ := hE
    exact ok _ stt .call _ 0 (by rw [e]) (by rfl) (by decide) hs (by decide)
  | done =>
    obtain ⟨stt, e, hs⟩ := hE
    exact ok _ stt .startList _ 0 (by rw [e]) (by rfl) (by decide) hs (by decide)
  | column n v =>
    obtain ⟨c, b, stt, e, _, _, hs⟩ := hE
    exact ok _ stt .startList _ 0 (by rw [e]) (by rfl) (by decide) hs (by decide)
  | refused k =>
    obtain ⟨pre, stt, e, hne, hs⟩ := hE
    obtain ⟨k1, k2⟩ := hk k rfl
    have hgoal : Session.checkResponse r = if k = 0 then .ret none else .ret (some (.tcg k)) := by
      cases pre with
      | cons t0 rest =>
        refine ok (t0 :: rest) stt t0 rest k (by rw [e]) rfl ?_ hs k2
        intro h0; exact hne (by rw [h0]; rfl)
      | nil =>
        obtain ⟨s, x, y, h1, h2⟩ := status_tail hs (fun t ht => hw t (by rw [e]; simp [ht]))
        have := verdict_status hp hl [] s x y (by rw [hT, e, List.nil_append, h1]; rfl)
          (by
            rintro ⟨t, ht, hfa⟩
            rw [hT, e, List.nil_append, h1] at ht
            simp only [List.head?_cons, Option.some.injEq] at ht
            rw [← ht] at hfa
            revert hfa; decide) h2
        rw [Nat.mod_eq_of_lt (a := k) (b := 2 ^ 64) (by omega), Nat.mod_eq_of_lt (a := k) (b := 256) (by omega)] at this
        exact this
    rw [hgoal, if_neg (by omega)]
    rfl

/-- One command on a conforming drive. -/
theorem sendCommand_conforming {dr : Drive} {W : Nat} {env : Prog.Env SecReq SecRep}
    {st : Prog.Trace SecReq SecRep → DriveState} (hc : Conforming dr W env st) (ctx : Ctx) (d : Device)
    (hd : d.baseComId = dr.comId) (hs : d.isAnySSC = true) (hf : W < ctx.fuel) (s : Session) (cmd : ABuf)
    (h : Prog.Trace SecReq SecRep) (p : Packet) (hp : readPacket (Cmd.wire (s.stamp d cmd)) = some p)
    (hcom : p.comId = dr.comId.toNat)
    (hlen : (Cmd.wire (s.stamp d cmd)).length ≤ 4096 ∧ 512 ∣ (Cmd.wire (s.stamp d cmd)).length) :
    ∃ tper, tper < 2 ^ 32 ∧
    ∀ a, (dr.perform tper (st h) p).answer = some a → (∀ k, a = .refused k → 0 < k ∧ k < 256) →
    (∃ r, Fetched a r ∧ (OutT.run env h (s.sendCommand ctx d cmd)).1 = .ret (some r, answerError a) ∧
      st (h ++ (OutT.run env h (s.sendCommand ctx d cmd)).2)
        = { dr.perform tper (st h) p with answer := none, wait := 0 }) ∨
    (Slow env ∧ (OutT.run env h (s.sendCommand ctx d cmd)).1 = .ret (none, some (.msg "timeout")) ∧
      ∃ x w, st (h ++ (OutT.run env h (s.sendCommand ctx d cmd)).2)
        = { dr.perform tper (st h) p with answer := x, wait := w }) := by
  obtain ⟨h1, hh1⟩ : ∃ x, x = h ++ [(SecReq.now, env h .now)] := ⟨_, rfl⟩
  have hst1 : st h1 = st h := by rw [hh1]; exact hc.now h
  obtain ⟨e1, tper, w, ht, hw, e2⟩ := hc.send h1 (Cmd.wire (s.stamp d cmd)) 5 p hlen.1 hlen.2 hp hcom
  rw [hst1] at e2
  refine ⟨tper, ht, ?_⟩
  intro a ha hk
  obtain ⟨q, hq⟩ : ∃ q, q = env h1 (.sec true false 1 dr.comId (Cmd.wire (s.stamp d cmd)) 5) := ⟨_, rfl⟩
  rw [← hq] at e1 e2
  obtain ⟨h2, hh2⟩ : ∃ x, x = h1 ++ [(SecReq.sec true false 1 dr.comId (Cmd.wire (s.stamp d cmd)) 5, q)] := ⟨_, rfl⟩
  rw [← hh2] at e2
  have hexec : OutT.run env h (d.exec ctx.fuel (s.stamp d cmd) 1) =
      ((OutT.run env h2 (d.poll 1 (env h .now).time ctx.fuel)).1,
       (SecReq.now, env h .now) :: (SecReq.sec true false 1 dr.comId (Cmd.wire (s.stamp d cmd)) 5, q) ::
        (OutT.run env h2 (d.poll 1 (env h .now).time ctx.fuel)).2) := by
    rw [Device.exec, OutT.run_ask_bind, if_neg (by simp [hs]), OutT.run_ask_bind]
    unfold Device.sendReq
    rw [hd, ← hh1, ← hq, e1, ← hh2]
  have hpoll := poll_conforming hc d hd h a ctx.fuel h2 (by rw [e2]; exact ha) (by rw [e2]; show w < ctx.fuel; omega)
  have happ : ∀ t, h ++ (SecReq.now, env h .now) ::
      (SecReq.sec true false 1 dr.comId (Cmd.wire (s.stamp d cmd)) 5, q) :: t = h2 ++ t := by
    intro t; rw [hh2, hh1]; simp
  unfold Session.sendCommand
  rw [OutT.run_bind, hexec]
  rcases hpoll with ⟨r, p1, p2, p3⟩ | ⟨r, p1, p2, x, w', p3⟩
  · left
    refine ⟨r, p2, ?_, ?_⟩
    · rw [p1]
      simp only [OutT.run_bind, fetched_check p2 hk, OutT.run_lift_ret, OutT.run_ret]
    · rw [p1]
      simp only [OutT.run_bind, fetched_check p2 hk, OutT.run_lift_ret, OutT.run_ret, List.append_nil]
      rw [happ, p3, e2]
  · right
    refine ⟨p2, by rw [p1]; rfl, x, w', ?_⟩
    rw [p1]
    simp only [OutT.run_ret, List.append_nil]
    rw [happ, p3, e2]

end Dparm
