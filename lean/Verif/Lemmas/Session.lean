import Verif.Spec.Session
import Verif.Props.Exec
/-!
# Lemmas on session exchanges
-/
namespace Dparm
open Spec

theorem parsed_tokens {r : Resp} (h : Parsed r) : r.buf.length = 2048 ∧
    ∀ t ∈ r.tokens, t ≠ [] ∧ Tok.type t ≠ .panic ∧ Tok.getUint64 t ≠ .panic ∧
      Tok.getString t = payloadOf t ∧ payloadOf t ≠ .panic := by
  obtain ⟨buf, behind, hb, hc⟩ := h
  have hok : (Resp.commit ⟨buf, []⟩ behind).2 = none := by rw [hc]
  have hbuf := (commit_decision ⟨buf, []⟩ behind hb).2.2.1
  rw [hc] at hbuf
  refine ⟨by rw [hbuf]; exact hb, ?_⟩
  intro t ht
  have ht' : t ∈ (Resp.commit ⟨buf, []⟩ behind).1.tokens := by rw [hc]; exact ht
  obtain ⟨b, rest, e, _⟩ := parsed_token_shape ⟨buf, []⟩ behind hb hok t ht'
  obtain ⟨a1, a2, a3, _, a5⟩ := accessors_never_panic ⟨buf, []⟩ behind hb hok t ht'
  exact ⟨by simp [e], a1, a2, a3, a5⟩

/-- The possible outcomes of an exchange. -/
theorem exec_shape (d : Device) (cmd : ABuf) (p : Byte) (fuel : Nat)
    (env : Prog.Env SecReq SecRep) (h : Prog.Trace SecReq SecRep) :
    (∃ x e, (OutT.run env h (d.exec fuel cmd p)).1 = .ret (x, some e)) ∨
    (∃ r, (OutT.run env h (d.exec fuel cmd p)).1 = .ret (some r, none) ∧ Parsed r) ∨
    (OutT.run env h (d.exec fuel cmd p)).1 = .running := by
  by_cases hd : d.isAnySSC = true
  · cases fuel with
    | zero =>
      rw [Device.exec, OutT.run_ask_bind, if_neg (by simp [hd]), OutT.run_ask_bind]
      simp only
      split
      · left; exact ⟨_, _, rfl⟩
      · right; right; rfl
    | succ f =>
      obtain ⟨t0, s, rounds, _, h1, h2⟩ := exec_exchanges d cmd p (f + 1) env h hd (by omega)
      cases hs : s.err with
      | some e => left; exact ⟨_, _, (h1 e hs).2⟩
      | none =>
        obtain ⟨front, last, _, _, l1, l2, l3, l4⟩ := h2 hs
        cases hl : last.got.err with
        | some e => left; exact ⟨_, _, l1 e hl⟩
        | none =>
          by_cases c1 : last.expired t0.time
          · left; exact ⟨_, _, l2 hl c1⟩
          · by_cases c2 : last.pending
            · right; right; exact (l4 ⟨hl, c1, c2⟩).1
            · have hp := l3 hl c1 c2
              cases hq : last.parsed.2 with
              | some e => left; rw [hq] at hp; exact ⟨_, _, hp⟩
              | none =>
                right; left
                rw [hq] at hp
                refine ⟨last.parsed.1, hp, last.response, last.got.behind, Round.response_length last, ?_⟩
                show last.parsed = _
                rw [← hq]
  · left
    rw [Device.exec, OutT.run_ask_bind, if_pos (by simpa using hd)]
    exact ⟨_, _, rfl⟩

theorem type_ctl : ∀ b : Byte, (Tok.typeOfByte b = 0xfa ↔ b = 0xfa) ∧ (Tok.typeOfByte b = 0xf0 ↔ b = 0xf0) ∧
    (Tok.typeOfByte b = 0xf1 ↔ b = 0xf1) := by decide +kernel

theorem type_head {t : Bytes} (ht : t ≠ []) (k : Nat) (b : Byte)
    (hk : ∀ x : Byte, Tok.typeOfByte x = k ↔ x = b) :
    ∃ n, Tok.type t = .ret n ∧ (n = k ↔ t.head? = some b) := by
  cases t with
  | nil => exact absurd rfl ht
  | cons x xs => exact ⟨_, rfl, by simpa using hk x⟩

theorem getUint64_value (t : Bytes) (ht : t ≠ []) :
    (∀ v, unsignedValue t = some v → Tok.getUint64 t = .ok (BitVec.ofNat 64 v) ∧ v < 2 ^ 64) ∧
    (unsignedValue t = none → Tok.getUint64 t = .err Tok.illegalData) := by
  cases t with
  | nil => exact absurd rfl ht
  | cons b d =>
    rw [getUint64_exact]
    unfold unsignedValue
    by_cases h1 : b.toNat < 64
    · simp only [h1, if_true]
      exact ⟨fun v hv => by cases hv; exact ⟨rfl, by omega⟩, by simp⟩
    · simp only [h1, if_false]
      by_cases h2 : 128 ≤ b.toNat ∧ b.toNat < 192 ∧ b.toNat / 16 % 2 = 0
      · rw [if_pos h2, if_pos h2]
        refine ⟨fun v hv => ?_, by simp⟩
        cases hv
        refine ⟨?_, Nat.mod_lt _ (by decide)⟩
        congr 1
        apply BitVec.eq_of_toNat_eq
        simp
      · rw [if_neg h2, if_neg h2]
        simp

theorem getUint8_value (t : Bytes) (ht : t ≠ []) :
    (∀ v, unsignedValue t = some v → Tok.getUint8 t = .ok (BitVec.ofNat 8 v)) ∧
    (unsignedValue t = none → Tok.getUint8 t = .err Tok.illegalData) := by
  obtain ⟨a, b⟩ := getUint64_value t ht
  constructor
  · intro v hv
    rw [Tok.getUint8, (a v hv).1]
    simp only [Res.map, Res.ok.injEq]
    apply BitVec.eq_of_toNat_eq
    simp only [BitVec.toNat_setWidth, BitVec.toNat_ofNat]
    omega
  · intro h; rw [Tok.getUint8, b h]; rfl

theorem getUint32_value (t : Bytes) (ht : t ≠ []) :
    (∀ v, unsignedValue t = some v → Tok.getUint32 t = .ok (BitVec.ofNat 32 v)) ∧
    (unsignedValue t = none → Tok.getUint32 t = .err Tok.illegalData) := by
  obtain ⟨a, b⟩ := getUint64_value t ht
  constructor
  · intro v hv
    rw [Tok.getUint32, (a v hv).1]
    simp only [Res.map, Res.ok.injEq]
    apply BitVec.eq_of_toNat_eq
    simp only [BitVec.toNat_setWidth, BitVec.toNat_ofNat]
    omega
  · intro h; rw [Tok.getUint32, b h]; rfl

/-- The verdict on a parsed response, in the specification's terms. -/
inductive Verdict (r : Resp) : P (Option GoErr) → Prop where
  | noLengths (h : ¬ LengthsPresent r) : Verdict r (.ret (some .illegalResponse))
  | noTokens (h : LengthsPresent r) (h0 : r.tokens = []) : Verdict r (.ret (some .illegalResponse))
  | endOfSession (h : LengthsPresent r) (h0 : EndOfSession r) : Verdict r (.ret none)
  | short (h : TooShort r) : Verdict r .panic
  | noList (h : LengthsPresent r) (h0 : ¬ EndOfSession r) (h5 : 5 ≤ r.tokens.length)
      (hl : ∀ s, ¬ StatusList r s) : Verdict r (.ret (some .illegalResponse))
  | notNumber (h : LengthsPresent r) (h0 : ¬ EndOfSession r) (s : Bytes) (hl : StatusList r s)
      (hs : unsignedValue s = none) : Verdict r (.ret (some Tok.illegalData))
  | failed (h : LengthsPresent r) (h0 : ¬ EndOfSession r) (v : Nat) (hv : StatusValue r v)
      (hne : v % 256 ≠ 0) : Verdict r (.ret (some (.tcg (v % 256))))
  | success (h : LengthsPresent r) (h0 : ¬ EndOfSession r) (v : Nat) (hv : StatusValue r v)
      (hne : v % 256 = 0) : Verdict r (.ret none)

theorem five_last {α : Type} (l : List α) (h : 5 ≤ l.length) :
    ∃ pre a b c d e, l = pre ++ [a, b, c, d, e] := by
  refine ⟨l.take (l.length - 5), ?_⟩
  have hd : (l.drop (l.length - 5)).length = 5 := by rw [List.length_drop]; omega
  match hm : l.drop (l.length - 5), hd with
  | [a, b, c, d, e], _ => exact ⟨a, b, c, d, e, by rw [← hm, List.take_append_drop]⟩

theorem checkResponse_verdict {r : Resp} (hp : Parsed r) : Verdict r (Session.checkResponse r) := by
  obtain ⟨hb, htok⟩ := parsed_tokens hp
  unfold Session.checkResponse
  simp only [leVal_eq_zero]
  by_cases h1 : beVal (slice r.buf 16 4) = 0 ∨ beVal (slice r.buf 40 4) = 0 ∨ beVal (slice r.buf 52 4) = 0
  · rw [if_pos h1]
    exact .noLengths (by unfold LengthsPresent; omega)
  · rw [if_neg h1]
    have hlen : LengthsPresent r := by unfold LengthsPresent; omega
    cases hT : r.tokens with
    | nil =>
      have : r.getToken 0 = .ret none := ((getToken_exact r 0).2.1).2 (by simp [Resp.getTokenCount, hT])
      simp only [this, P.ret_bind]
      exact .noTokens hlen hT
    | cons t0 rest =>
      have hpos : 0 < r.tokens.length := by rw [hT]; simp
      have g0 : r.getToken 0 = .ret (some t0) := by
        have := (getToken_exact r 0).2.2 0 hpos
        simpa [hT] using this
      obtain ⟨n0, e0, i0⟩ := type_head (htok t0 (by simp [hT])).1 0xfa 0xfa (fun x => (type_ctl x).1)
      simp only [g0, P.ret_bind, e0]
      have hE : EndOfSession r ↔ t0.head? = some 0xfa := by simp [EndOfSession, hT]
      by_cases c0 : n0 = 0xfa
      · rw [if_pos c0]
        exact .endOfSession hlen (hE.2 (i0.1 c0))
      · rw [if_neg c0]
        have hne : ¬ EndOfSession r := fun h => c0 (i0.2 (hE.1 h))
        by_cases h5 : r.tokens.length ≤ 4
        · have : r.getToken (r.getTokenCount - 5) = .panic :=
            ((getToken_exact r _).1).2 (by unfold Resp.getTokenCount; omega)
          have ha : r.getToken (r.getTokenCount - 1) = .ret (some (r.tokens[r.tokens.length - 1]'(by omega))) := by
            have := (getToken_exact r 0).2.2 (r.tokens.length - 1) (by omega)
            rw [← this]
            unfold Resp.getTokenCount
            congr 1
            omega
          simp only [ha, this, P.ret_bind, P.panic_bind]
          exact .short ⟨hlen, by omega, h5, hne⟩
        · obtain ⟨pre, a, s, x, y, z, hl⟩ := five_last r.tokens (by omega)
          have hn : r.tokens.length = pre.length + 5 := by rw [hl]; simp
          have get : ∀ k : Nat, 1 ≤ k → k ≤ 5 → ∀ t, r.tokens[r.tokens.length - k]? = some t →
              r.getToken (r.getTokenCount - (k : Int)) = .ret (some t) := by
            intro k k1 k5 t ht
            obtain ⟨hi, hv⟩ := List.getElem?_eq_some_iff.1 ht
            have := (getToken_exact r 0).2.2 (r.tokens.length - k) hi
            rw [hv] at this
            rw [← this]
            unfold Resp.getTokenCount
            congr 1
            omega
          have gz := get 1 (by omega) (by omega) z (by rw [hn, hl]; simp)
          have ga := get 5 (by omega) (by omega) a (by rw [hn, hl]; simp)
          have gs := get 4 (by omega) (by omega) s (by
            rw [hn, hl, show pre.length + 5 - 4 = pre.length + 1 by omega,
              List.getElem?_append_right (by omega)]
            simp)
          simp only [Int.natCast_one] at gz
          simp only [show ((5 : Nat) : Int) = 5 from rfl] at ga
          simp only [show ((4 : Nat) : Int) = 4 from rfl] at gs
          obtain ⟨nz, ez, iz⟩ := type_head (htok z (by simp [hl])).1 0xf1 0xf1 (fun x => (type_ctl x).2.2)
          obtain ⟨na, ea, ia⟩ := type_head (htok a (by simp [hl])).1 0xf0 0xf0 (fun x => (type_ctl x).2.1)
          have huniq : ∀ s', StatusList r s' → s' = s ∧ a.head? = some 0xf0 ∧ z.head? = some 0xf1 := by
            rintro s' ⟨pre', a', x', y', z', hl', ha', hz'⟩
            rw [hl] at hl'
            have := List.append_inj' hl' rfl
            simp only [List.cons.injEq, and_true] at this
            obtain ⟨_, rfl, rfl, _, _, rfl⟩ := this
            exact ⟨rfl, ha', hz'⟩
          simp only [ga, gz, gs, P.ret_bind, ez, ea]
          by_cases cz : nz = 0xf1
          · rw [if_neg (by simpa using cz)]
            by_cases ca : na = 0xf0
            · rw [if_neg (by simpa using ca)]
              have hsl : StatusList r s := ⟨pre, a, x, y, z, hl, ia.1 ca, iz.1 cz⟩
              obtain ⟨u1, u2⟩ := getUint8_value s (htok s (by simp [hl])).1
              cases hu : unsignedValue s with
              | none => rw [u2 hu]; exact .notNumber hlen hne s hsl hu
              | some v =>
                rw [u1 v hu]
                simp only
                by_cases hv : v % 256 = 0
                · rw [if_neg]
                  · exact .success hlen hne v ⟨s, hsl, hu⟩ hv
                  · simp only [ne_eq, Decidable.not_not]
                    apply BitVec.eq_of_toNat_eq; simpa using hv
                · rw [if_pos]
                  · have : (BitVec.ofNat 8 v).toNat = v % 256 := by simp
                    rw [this]
                    exact .failed hlen hne v ⟨s, hsl, hu⟩ hv
                  · intro h
                    have := congrArg BitVec.toNat h
                    simp at this
                    omega
            · rw [if_pos (by simpa using ca)]
              exact .noList hlen hne (by omega) (fun s' h => ca (ia.2 (huniq s' h).2.1))
          · rw [if_pos (by simpa using cz)]
            exact .noList hlen hne (by omega) (fun s' h => cz (iz.2 (huniq s' h).2.2))

end Dparm
