import Verif.Lemmas.TperOps
/-!
# A drive that conforms to the reference

Shows that the hypotheses of the theorems on conforming drives can be met, for every drive parameter and every
initial state: a drive that answers at once, in the shortest form.
-/
namespace Dparm
open Spec

/-- A number as a 4 byte short atom. -/
def numToken (n : Nat) : Token := .short false false (beBytes 4 n)

/-- A status list. -/
def statusTokens (k : Nat) : List Token := [.startList, numToken k, .tiny false 0, .tiny false 0, .endList]

/-- The tokens this drive sends. -/
def idealTokens : Answer → List Token
  | .sync h t => [.call, .short true false smUid, .short true false mSyncSession, .startList, numToken h,
      numToken t] ++ [] ++ [.endList, .endOfData] ++ statusTokens 0
  | .done => [.startList, .endList, .endOfData] ++ statusTokens 0
  | .column n v => [.startList, .startList, .startName, numToken n, .medium true false v, .endName, .endList,
      .endList, .endOfData] ++ statusTokens 0
  | .refused k => [] ++ statusTokens k

/-- The answers this drive gives. -/
def AnswerFits : Answer → Prop
  | .sync h t => h < 2 ^ 32 ∧ t < 2 ^ 32
  | .done => True
  | .column n v => n < 2 ^ 32 ∧ v.length ≤ 1900
  | .refused k => k < 2 ^ 32

theorem numToken_asNat {n : Nat} (h : n < 2 ^ 32) : (numToken n).asNat = some n := by
  unfold numToken Token.asNat
  simp only
  rw [beVal_beBytes, Nat.mod_eq_of_lt (by omega)]

theorem numToken_WF (n : Nat) : (numToken n).WF := by
  show (beBytes 4 n).length < 16
  rw [beBytes_length]; omega

theorem numToken_length (n : Nat) : (numToken n).encode.length = 5 := by
  simp [numToken, Token.encode, beBytes_length]

theorem statusTokens_spec {k : Nat} (h : k < 2 ^ 32) : IsStatus k (statusTokens k) :=
  ⟨_, _, _, rfl, numToken_asNat h⟩

theorem idealTokens_encodes {a : Answer} (h : AnswerFits a) : a.Encodes (idealTokens a) := by
  cases a with
  | sync x t => exact ⟨_, _, _, _, [], _, rfl, rfl, rfl, numToken_asNat h.1, numToken_asNat h.2,
      statusTokens_spec (by decide)⟩
  | done => exact ⟨_, rfl, statusTokens_spec (by decide)⟩
  | column n v => exact ⟨_, _, _, rfl, numToken_asNat h.1, rfl, statusTokens_spec (by decide)⟩
  | refused k => exact ⟨[], _, rfl, by simp, statusTokens_spec h⟩

theorem idealTokens_WF {a : Answer} (h : AnswerFits a) : ∀ t ∈ idealTokens a, t.WF ∧ t ≠ Token.emptyAtom := by
  have hn : ∀ n, (numToken n).WF ∧ numToken n ≠ Token.emptyAtom := fun n => ⟨numToken_WF n, by simp [numToken, Token.emptyAtom]⟩
  have hs : ∀ k, ∀ t ∈ statusTokens k, t.WF ∧ t ≠ Token.emptyAtom := by
    intro k t ht
    simp only [statusTokens, List.mem_cons, List.not_mem_nil, or_false] at ht
    rcases ht with e | e | e | e | e
    · rw [e]; decide
    · rw [e]; exact hn k
    · rw [e]; decide
    · rw [e]; decide
    · rw [e]; decide
  intro t ht
  cases a with
  | sync x y =>
    simp only [idealTokens, List.mem_append, List.mem_cons, List.not_mem_nil, or_false] at ht
    rcases ht with ((e | e | e | e | e | e) | e | e) | e
    · rw [e]; decide
    · rw [e]; decide
    · rw [e]; decide
    · rw [e]; decide
    · rw [e]; exact hn _
    · rw [e]; exact hn _
    · rw [e]; decide
    · rw [e]; decide
    · exact hs _ _ e
  | done =>
    simp only [idealTokens, List.mem_append, List.mem_cons, List.not_mem_nil, or_false] at ht
    rcases ht with (e | e | e) | e
    · rw [e]; decide
    · rw [e]; decide
    · rw [e]; decide
    · exact hs _ _ e
  | column n v =>
    simp only [idealTokens, List.mem_append, List.mem_cons, List.not_mem_nil, or_false] at ht
    rcases ht with (e | e | e | e | e | e | e | e | e) | e
    · rw [e]; decide
    · rw [e]; decide
    · rw [e]; decide
    · rw [e]; exact hn _
    · rw [e]
      have := h.2
      exact ⟨show v.length < 2048 by omega, by simp [Token.emptyAtom]⟩
    · rw [e]; decide
    · rw [e]; decide
    · rw [e]; decide
    · rw [e]; decide
    · exact hs _ _ e
  | refused k => exact hs k t ht

theorem encodeAll_status (k : Nat) : (encodeAll (statusTokens k)).length = 9 := by
  simp only [encodeAll, statusTokens, List.flatMap_cons, List.flatMap_nil, List.length_append, numToken_length]
  rfl

theorem idealTokens_length {a : Answer} (h : AnswerFits a) : (encodeAll (idealTokens a)).length ≤ 1930 := by
  cases a with
  | sync x y =>
    simp only [idealTokens, encodeAll_append, List.length_append, encodeAll_status]
    simp only [encodeAll, List.flatMap_cons, List.flatMap_nil, List.length_append, numToken_length]
    decide
  | done =>
    simp only [idealTokens, encodeAll_append, List.length_append, encodeAll_status]
    decide
  | column n v =>
    simp only [idealTokens, encodeAll_append, List.length_append, encodeAll_status]
    simp only [encodeAll, List.flatMap_cons, List.flatMap_nil, List.length_append, numToken_length]
    have hm : (Token.medium true false v).encode.length = v.length + 2 := by
      simp [Token.encode]
    have := h.2
    have hc : ∀ c, (Token.control c).encode.length = 1 := fun _ => rfl
    rw [hm]
    simp only [Token.startList, Token.startName, Token.endName, Token.endList, Token.endOfData, hc, List.length_nil]
    omega
  | refused k =>
    simp only [idealTokens, List.nil_append, encodeAll_status]; omega

/-- The block with tokens. -/
def idealBlock (ts : List Token) : Bytes :=
  List.replicate 16 0 ++ beBytes 4 1 ++ List.replicate 20 0 ++ beBytes 4 1 ++ List.replicate 8 0 ++
    beBytes 4 (encodeAll ts).length ++ encodeAll ts

theorem slice_mid3 (a b c : Bytes) (i n : Nat) (hi : a.length = i) (hn : b.length = n) : slice (a ++ b ++ c) i n = b := by
  unfold slice
  rw [List.append_assoc, List.drop_left' hi, List.take_left' hn]

theorem idealBlock_carries {ts : List Token} (hw : ∀ t ∈ ts, t.WF ∧ t ≠ Token.emptyAtom)
    (hl : (encodeAll ts).length ≤ 1930) : CarriesTokens (idealBlock ts) ts := by
  have hlen : (idealBlock ts).length = 56 + (encodeAll ts).length := by
    simp only [idealBlock, List.length_append, List.length_replicate, beBytes_length]
  refine ⟨ts, fun u hu => (hw u hu).1, ?_, by omega, by omega, ?_, ?_, ?_, ?_, ?_⟩
  · rw [List.filter_eq_self]
    intro u hu
    simpa using (hw u hu).2
  · unfold idealBlock
    rw [slice_mid3 _ (beBytes 4 (encodeAll ts).length) _ 52 4 (by simp [beBytes_length]) (by simp [beBytes_length]),
      beVal_beBytes, Nat.mod_eq_of_lt (by omega)]
  · unfold idealBlock
    have := slice_mid3 (List.replicate 16 0 ++ beBytes 4 1 ++ List.replicate 20 0 ++ beBytes 4 1 ++ List.replicate 8 0 ++
      beBytes 4 (encodeAll ts).length) (encodeAll ts) [] 56 (encodeAll ts).length (by simp [beBytes_length]) rfl
    rw [List.append_nil] at this
    exact this
  · have : slice (idealBlock ts) 40 4 = beBytes 4 1 := by
      unfold idealBlock
      have := slice_mid3 (List.replicate 16 0 ++ beBytes 4 1 ++ List.replicate 20 0) (beBytes 4 1)
        (List.replicate 8 0 ++ (beBytes 4 (encodeAll ts).length ++ encodeAll ts)) 40 4
        (by simp [beBytes_length]) (by simp [beBytes_length])
      simp only [List.append_assoc] at this ⊢
      exact this
    rw [this]; decide
  · have : slice (idealBlock ts) 16 4 = beBytes 4 1 := by
      unfold idealBlock
      have := slice_mid3 (List.replicate 16 0) (beBytes 4 1) (List.replicate 20 0 ++ (beBytes 4 1 ++ (List.replicate 8 0 ++
        (beBytes 4 (encodeAll ts).length ++ encodeAll ts)))) 16 4
        (by simp) (by simp [beBytes_length])
      simp only [List.append_assoc] at this ⊢
      exact this
    rw [this]; decide
  · have : slice (idealBlock ts) 8 4 = List.replicate 4 0 := by
      unfold idealBlock
      have := slice_mid3 (List.replicate 8 0) (List.replicate 4 0) (List.replicate 4 0 ++ (beBytes 4 1 ++
        (List.replicate 20 0 ++ (beBytes 4 1 ++ (List.replicate 8 0 ++
        (beBytes 4 (encodeAll ts).length ++ encodeAll ts)))))) 8 4
        (by simp) (by simp)
      simp only [← List.append_assoc, List.replicate_append_replicate] at this ⊢
      exact this
    rw [this]; decide

/-- What a request does to the drive. -/
def idealStep (dr : Drive) (s : DriveState) : SecReq → DriveState
  | .sec true _ proto comId data _ =>
    if proto = 1 ∧ comId = dr.comId then
      match readPacket data with
      | some p => if p.comId = dr.comId.toNat then
          { dr.perform ((s.sessions.length + 1) % 2 ^ 32) s p with wait := 0 } else s
      | none => s
    else s
  | .sec false _ proto comId _ _ =>
    if proto = 1 ∧ comId = dr.comId then { s with answer := none } else s
  | _ => s

/-- Its state after a history. -/
def idealState (dr : Drive) (s0 : DriveState) (h : Prog.Trace SecReq SecRep) : DriveState :=
  h.foldl (fun s x => idealStep dr s x.1) s0

/-- What it answers. -/
def idealEnv (dr : Drive) (s0 : DriveState) : Prog.Env SecReq SecRep := fun h q =>
  match q with
  | .sec false _ _ _ _ _ =>
    match (idealState dr s0 h).answer with
    | some a => { data := idealBlock (idealTokens a) }
    | none => {}
  | _ => {}

theorem idealState_snoc (dr : Drive) (s0 : DriveState) (h : Prog.Trace SecReq SecRep) (q : SecReq) (r : SecRep) :
    idealState dr s0 (h ++ [(q, r)]) = idealStep dr (idealState dr s0 h) q := by
  simp [idealState, List.foldl_append]

/-- What stays true of the drive's state. -/
def IdealInv (s : DriveState) : Prop := s.wait = 0 ∧ ∀ a, s.answer = some a → AnswerFits a

theorem idealInv_perform (dr : Drive) (hm : dr.msid.length ≤ 1900) (n : Nat) (hn : n < 2 ^ 32) (s : DriveState)
    (p : Packet) (a : Answer) (ha : (dr.perform n s p).answer = some a) : AnswerFits a := by
  have hr : ∀ k, k < 2 ^ 32 → some (Answer.refused k) = some a → AnswerFits a := by
    intro k hk e
    cases e
    exact hk
  unfold Drive.perform at ha
  split at ha
  · exact hr _ (by decide) ha
  · split at ha
    · split at ha
      · split at ha
        · exact hr _ (by decide) ha
        · unfold Drive.startSession at ha
          split at ha
          · exact hr _ (by decide) ha
          · rename_i hh
            split at ha
            · exact hr _ (by decide) ha
            · split at ha
              · cases ha
                exact ⟨by omega, hn⟩
              · exact hr _ (by decide) ha
      · exact hr _ (by decide) ha
    · split at ha
      · cases ha
      · unfold Drive.method at ha
        split at ha
        · split at ha
          · cases ha; trivial
          · exact hr _ (by decide) ha
        · split at ha
          · cases ha
            exact ⟨by decide, hm⟩
          · exact hr _ (by decide) ha

theorem idealInv_step (dr : Drive) (hm : dr.msid.length ≤ 1900) (s : DriveState) (hs : IdealInv s) (q : SecReq) :
    IdealInv (idealStep dr s q) := by
  cases q with
  | now => exact hs
  | sleep ns => exact hs
  | sec rw dma proto comId data secs =>
    cases rw
    · simp only [idealStep]
      split
      · exact ⟨hs.1, fun a ha => by cases ha⟩
      · exact hs
    · simp only [idealStep]
      split
      · split
        · split
          · exact ⟨rfl, fun a ha => idealInv_perform dr hm _ (Nat.mod_lt _ (by decide)) s _ a ha⟩
          · exact hs
        · exact hs
      · exact hs

theorem idealInv (dr : Drive) (hm : dr.msid.length ≤ 1900) (s0 : DriveState) (h0 : IdealInv s0)
    (h : Prog.Trace SecReq SecRep) : IdealInv (idealState dr s0 h) := by
  unfold idealState
  induction h generalizing s0 with
  | nil => exact h0
  | cons x xs ih => exact ih _ (idealInv_step dr hm s0 h0 x.1)

/-- It conforms. -/
theorem ideal_conforming (dr : Drive) (hm : dr.msid.length ≤ 1900) (s0 : DriveState) (ha : s0.answer = none)
    (hw : s0.wait = 0) : Conforming dr 0 (idealEnv dr s0) (idealState dr s0) := by
  have hinv := idealInv dr hm s0 ⟨hw, fun a h => by rw [ha] at h; cases h⟩
  constructor
  · intro h data secs p _ _ hp hc
    refine ⟨rfl, ((idealState dr s0 h).sessions.length + 1) % 2 ^ 32, 0, Nat.mod_lt _ (by decide), Nat.le_refl _, ?_⟩
    rw [idealState_snoc]
    simp only [idealStep, hp, and_self, if_true, if_pos hc]
  · intro h secs a w _ hw'
    rw [(hinv h).1] at hw'
    cases hw'
  · intro h secs a hans _
    have hf := (hinv h).2 a hans
    have he : idealEnv dr s0 h (.sec false false 1 dr.comId (zeros 2048) secs) = { data := idealBlock (idealTokens a) } := by
      simp only [idealEnv, hans]
    refine ⟨by rw [he], ⟨idealTokens a, idealTokens_encodes hf, ?_⟩, ?_⟩
    · rw [he]
      exact idealBlock_carries (idealTokens_WF hf) (idealTokens_length hf)
    · rw [idealState_snoc]
      simp only [idealStep, and_self, if_true]
  · intro h
    rw [idealState_snoc]; rfl
  · intro h ns
    rw [idealState_snoc]; rfl

theorem ideal_prompt (dr : Drive) (s0 : DriveState) : Prompt (idealEnv dr s0) := by
  intro h h'
  exact Nat.le_add_right _ _

end Dparm
