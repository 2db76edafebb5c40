import Verif.Lemmas.WinClient
import Verif.Props.Client
import Verif.Props.WinEnum
/-!
# C143–C145: handles along any history of calls on Windows
-/
namespace Dparm
open Spec

/-- What the client holds against what is open. -/
structure WinHeldInv (st : WinHeld) (L : List WinRes) : Prop where
  isOpen : ∀ (i : Nat) o, st[i]? = some o → o.handle.dh ≠ none → ∃ k, o.drv = some k ∧ ∀ x ∈ k.owned, x ∈ L
  distinct : ∀ (i j : Nat) o o' x, st[i]? = some o → st[j]? = some o' → HoldsRes o x → HoldsRes o' x → i = j

/-- Nothing else is open, and no driver holds more than the handle it was given. -/
structure WinExact (st : WinHeld) (L : List WinRes) : Prop where
  held : ∀ x ∈ L, ∃ (i : Nat) (o : WinOpened), st[i]? = some o ∧ HoldsRes o x
  plain : ∀ (i : Nat) (o : WinOpened), st[i]? = some o → o.handle.dh ≠ none → miniport o = false

theorem WinHeldInv.still {st : WinHeld} {L L' : List WinRes} (h : WinHeldInv st L) (hs : StillHeld L L') : WinHeldInv st L' :=
  ⟨(fun i o hi hd => by obtain ⟨k, h1, h2⟩ := h.isOpen i o hi hd; exact ⟨k, h1, fun x hx => hs x (h2 x hx)⟩), h.distinct⟩

theorem WinHeldInv.isHeld {st : WinHeld} {L : List WinRes} (h : WinHeldInv st L) {i : Nat} {o : WinOpened}
    (hi : st[i]? = some o) {x : WinRes} (hx : HoldsRes o x) : x ∈ L := by
  obtain ⟨k, h1, h2⟩ := h.isOpen i o hi hx.1
  obtain ⟨_, k', h3, h4⟩ := hx
  rw [h1] at h3
  cases h3
  exact h2 x h4

theorem opens_holds {o : WinOpened} {new : List WinRes} (h : Opens o new) {x : WinRes} (hx : HoldsRes o x) : x ∈ new := by
  obtain ⟨hd, k, hk, hx⟩ := hx
  unfold Opens at h
  rw [hk] at h
  rw [h.2]
  exact hx

theorem opens_driven {o : WinOpened} {new : List WinRes} (h : Opens o new) (hd : o.handle.dh ≠ none) :
    ∃ k, o.drv = some k ∧ new = k.owned := by
  unfold Opens at h
  cases hk : o.drv with
  | none => rw [hk] at h; exact absurd h.1 hd
  | some k => rw [hk] at h; exact ⟨k, rfl, h.2⟩

theorem snoc_get {α : Type} {st : List α} {o : α} {i : Nat} {o' : α} (hi : (st ++ [o])[i]? = some o') :
    st[i]? = some o' ∨ (i = st.length ∧ o' = o) := by
  rw [List.getElem?_append] at hi
  split at hi
  · exact .inl hi
  · have : i - st.length = 0 := by
      rcases Nat.eq_zero_or_pos (i - st.length) with h | h
      · exact h
      · rw [List.getElem?_eq_none (by simp; omega)] at hi
        cases hi
    rw [this] at hi
    simp only [List.getElem?_cons_zero, Option.some.injEq] at hi
    exact .inr ⟨by omega, hi.symm⟩

/-- A new handle with new handles of Windows. -/
theorem WinHeldInv.push {st : WinHeld} {L : List WinRes} (h : WinHeldInv st L) {new : List WinRes} (hn : ∀ x ∈ new, x ∉ L)
    {o : WinOpened} (ho : Opens o new) : WinHeldInv (st ++ [o]) (new ++ L) := by
  refine ⟨fun i o' hi hd => ?_, fun i j a b x hi hj ha hb => ?_⟩
  · rcases snoc_get hi with hi | ⟨_, rfl⟩
    · obtain ⟨k, h1, h2⟩ := h.isOpen i o' hi hd
      exact ⟨k, h1, fun x hx => List.mem_append_right _ (h2 x hx)⟩
    · obtain ⟨k, h1, rfl⟩ := opens_driven ho hd
      exact ⟨k, h1, fun x hx => List.mem_append_left _ hx⟩
  · rcases snoc_get hi with hi' | ⟨rfl, rfl⟩ <;> rcases snoc_get hj with hj' | ⟨rfl, rfl⟩
    · exact h.distinct i j a b x hi' hj' ha hb
    · exact absurd (h.isHeld hi' ha) (hn x (opens_holds ho hb))
    · exact absurd (h.isHeld hj' hb) (hn x (opens_holds ho ha))
    · rfl

theorem WinExact.push {st : WinHeld} {L : List WinRes} (h : WinExact st L) {new : List WinRes} {o : WinOpened}
    (ho : Opens o new) (hd : o.handle.dh ≠ none) (hm : miniport o = false) : WinExact (st ++ [o]) (new ++ L) := by
  refine ⟨fun x hx => ?_, fun i o' hi hd' => ?_⟩
  · rcases List.mem_append.1 hx with hx | hx
    · obtain ⟨k, h1, rfl⟩ := opens_driven ho hd
      exact ⟨st.length, o, by simp, hd, k, h1, hx⟩
    · obtain ⟨i, o', h1, h2⟩ := h.held x hx
      exact ⟨i, o', (by rw [List.getElem?_append_left (List.getElem?_eq_some_iff.1 h1).1]; exact h1), h2⟩
  · rcases snoc_get hi with hi | ⟨_, rfl⟩
    · exact h.plain i o' hi hd'
    · exact hm

theorem set_get {α : Type} {st : List α} {i : Nat} {o' : α} {k : Nat} {a : α} (hk : (st.set i o')[k]? = some a) :
    (i = k ∧ a = o') ∨ (i ≠ k ∧ st[k]? = some a) := by
  rw [List.getElem?_set] at hk
  split at hk
  · rename_i hik
    split at hk
    · cases hk; exact .inl ⟨hik, rfl⟩
    · cases hk
  · rename_i hik
    exact .inr ⟨hik, hk⟩

/-- A handle replaced by one with the same driver. -/
theorem WinHeldInv.replace {st : WinHeld} {L : List WinRes} (h : WinHeldInv st L) {i : Nat} {o o' : WinOpened}
    (hi : st[i]? = some o) (hd : o'.handle.dh = o.handle.dh) (hs : o'.drv = o.drv) : WinHeldInv (st.set i o') L := by
  have hget : ∀ (k : Nat) (a : WinOpened), (st.set i o')[k]? = some a → ∃ b, st[k]? = some b ∧
      a.handle.dh = b.handle.dh ∧ a.drv = b.drv := by
    intro k a hk
    rcases set_get hk with ⟨rfl, rfl⟩ | ⟨_, hk⟩
    · exact ⟨o, hi, hd, hs⟩
    · exact ⟨a, hk, rfl, rfl⟩
  refine ⟨fun k a hk hda => ?_, fun k l a b x hk hl ha hb => ?_⟩
  · obtain ⟨b, h1, h2, h3⟩ := hget k a hk
    rw [h3]
    exact h.isOpen k b h1 (h2 ▸ hda)
  · obtain ⟨a', h1, h2, h3⟩ := hget k a hk
    obtain ⟨b', h4, h5, h6⟩ := hget l b hl
    unfold HoldsRes at ha hb
    rw [h2, h3] at ha
    rw [h5, h6] at hb
    exact h.distinct k l a' b' x h1 h4 ha hb

theorem WinExact.replace {st : WinHeld} {L : List WinRes} (h : WinExact st L) {i : Nat} {o o' : WinOpened}
    (hi : st[i]? = some o) (hd : o'.handle.dh = o.handle.dh) (hs : o'.drv = o.drv) : WinExact (st.set i o') L := by
  refine ⟨fun x hx => ?_, fun k a hk hda => ?_⟩
  · obtain ⟨k, a, h1, h2⟩ := h.held x hx
    by_cases hik : i = k
    · subst hik
      rw [hi] at h1
      cases h1
      refine ⟨i, o', ?_, ?_⟩
      · rw [List.getElem?_set_self (List.getElem?_eq_some_iff.1 hi).1]
      · unfold HoldsRes; rw [hd, hs]; exact h2
    · exact ⟨k, a, by rw [List.getElem?_set_ne hik]; exact h1, h2⟩
  · rcases set_get hk with ⟨rfl, rfl⟩ | ⟨_, hk⟩
    · have := h.plain i o hi (hd ▸ hda)
      unfold miniport at this ⊢
      rw [hs]
      exact this
    · exact h.plain k a hk hda

/-- A closed handle; a handle of Windows it had is gone. -/
theorem WinHeldInv.closed {st : WinHeld} {L : List WinRes} (h : WinHeldInv st L) {i : Nat} {o o' : WinOpened}
    (hi : st[i]? = some o) (hd : o'.handle.dh = none) {L' : List WinRes} (hL : ∀ x ∈ L, x ∈ L' ∨ HoldsRes o x) :
    WinHeldInv (st.set i o') L' := by
  have hget : ∀ (k : Nat) (a : WinOpened), (st.set i o')[k]? = some a → a.handle.dh ≠ none → i ≠ k ∧ st[k]? = some a := by
    intro k a hk hda
    rcases set_get hk with ⟨_, rfl⟩ | h
    · exact absurd hd hda
    · exact h
  refine ⟨fun k a hk hda => ?_, fun k l a b x hk hl ha hb => ?_⟩
  · obtain ⟨hik, hk⟩ := hget k a hk hda
    obtain ⟨d, h1, h2⟩ := h.isOpen k a hk hda
    refine ⟨d, h1, fun x hx => ?_⟩
    rcases hL x (h2 x hx) with h3 | h3
    · exact h3
    · exact absurd (h.distinct i k o a x hi hk h3 ⟨hda, d, h1, hx⟩) hik
  · exact h.distinct k l a b x (hget k a hk ha.1).2 (hget l b hl hb.1).2 ha hb

theorem WinExact.closed {st : WinHeld} {L : List WinRes} (h : WinExact st L) {i : Nat} {o o' : WinOpened}
    (hi : st[i]? = some o) (hd : o'.handle.dh = none) {L' : List WinRes} (hL : ∀ x ∈ L', x ∈ L ∧ ¬ HoldsRes o x) :
    WinExact (st.set i o') L' := by
  refine ⟨fun x hx => ?_, fun k a hk hda => ?_⟩
  · obtain ⟨hx, hno⟩ := hL x hx
    obtain ⟨k, a, h1, h2⟩ := h.held x hx
    by_cases hik : i = k
    · subst hik
      rw [hi] at h1
      cases h1
      exact absurd h2 hno
    · exact ⟨k, a, by rw [List.getElem?_set_ne hik]; exact h1, h2⟩
  · rcases set_get hk with ⟨_, rfl⟩ | ⟨_, hk⟩
    · exact absurd hd hda
    · exact h.plain k a hk hda

/-- What a call may leave when it does not return. -/
def winCallB (c : WinClientCall) (L L' : List WinRes) : Prop :=
  if winMayOpen c then StillHeld L L' else L' = L

/-- From `st` and `L` to `st'` and `L'` while `ds` are reported. -/
structure WinCensus (st : WinHeld) (L : List WinRes) (st' : WinHeld) (ds : List WinOpened) (L' : List WinRes) : Prop where
  inv : WinHeldInv st' L'
  exact_ : WinExact st L → (∀ d ∈ ds, d.handle.dh ≠ none ∧ miniport d = false) → WinExact st' L'
  files : ∀ x ∈ L', x ∈ L ∨ ∃ h, x = .file h
  count : L.Nodup → L'.length + winDriven st = L.length + winDriven st' + winDriverless ds + winMiniports ds

theorem WinCensus.refl {st : WinHeld} {L : List WinRes} (h : WinHeldInv st L) : WinCensus st L st [] L :=
  ⟨h, fun he _ => he, fun _ h => .inl h, fun _ => rfl⟩

theorem win_add_ok {st : WinHeld} {L L' : List WinRes} (h : WinHeldInv st L) {r : Res WinOpened} (hr : WinOpening L r L') :
    WinCensus st L (st.add r).held (st.add r).drives L' := by
  cases r with
  | ok o =>
    obtain ⟨new, rfl, h1, h2, h3⟩ := hr
    refine ⟨h.push h2 h3, fun he hd => ?_, fun x hx => ?_, fun _ => ?_⟩
    · have := hd o (List.mem_singleton.2 rfl)
      exact he.push h3 this.1 this.2
    · rcases List.mem_append.1 hx with hx | hx
      · exact .inr (opens_files h3 x hx)
      · exact .inl hx
    · unfold WinHeld.add winDriven winDriverless winMiniports
      simp only [List.countP_append, List.countP_cons, List.countP_nil, List.length_append]
      by_cases hd : o.handle.dh = none
      · have hk : o.drv = none := by
          unfold Opens at h3
          cases hk : o.drv with
          | none => rfl
          | some k => rw [hk] at h3; exact absurd hd h3.1
        have hm : miniport o = false := by unfold miniport; rw [hk]
        have hl : new.length = 1 := by
          unfold Opens at h3
          rw [hk] at h3
          obtain ⟨_, h, rfl⟩ := h3
          rfl
        rw [hd, hm]
        simp
        omega
      · obtain ⟨k, hk, rfl⟩ := opens_driven h3 hd
        have := owned_length o k hk
        cases hx : o.handle.dh with
        | none => exact absurd hx hd
        | some d =>
          simp
          omega
  | err e => rw [show L' = L from hr]; exact .refl h
  | panic => rw [show L' = L from hr]; exact .refl h

theorem win_query_safe {st : WinHeld} {L : List WinRes} (h : WinHeldInv st L) (i : Nat) {α : Type} (p : Handle → DrvM α)
    (hp : ∀ h, Gentle h (p h)) :
    OutT.Safe resA (· = L) (st.query i p) L (fun a L' => WinCensus st L a.held a.drives L') := by
  unfold WinHeld.query WinHeld.on
  split
  · rename_i o hi
    refine OutT.safe_bind' (method_safe (B := (· = L)) o p L (hp _) rfl (h.isOpen i o hi) (OutT.returns_any _)) ?_
    rintro a L' ⟨_, rfl⟩
    exact OutT.safe_ret (.refl h)
  · exact OutT.safe_ret (.refl h)

theorem win_tcg_safe {st : WinHeld} {L : List WinRes} (h : WinHeldInv st L) (i : Nat) {α : Type} (p : TcgM α) :
    OutT.Safe resA (· = L) (st.on i (fun o => do
      let _ ← tcgOnWindows o p
      OutT.ret { held := st })) L (fun a L' => WinCensus st L a.held a.drives L') := by
  unfold WinHeld.on
  split
  · rename_i o hi
    refine OutT.safe_bind' (tcgOnWindows_safe o p L rfl (h.isOpen i o hi)) ?_
    rintro a L' rfl
    exact OutT.safe_ret (.refl h)
  · exact OutT.safe_ret (.refl h)

/-- Every call keeps the protocol. -/
theorem win_call_safe (conv : Wide → Bytes) (ctx : Ctx) (c : WinClientCall) (st : WinHeld) (L : List WinRes)
    (h : WinHeldInv st L) : OutT.Safe resA (winCallB c L) (c.prog conv ctx st) L
      (fun a L' => WinCensus st L a.held a.drives L') := by
  have hB : ∀ {L'}, L' = L → winCallB c L L' := by
    rintro L' rfl
    unfold winCallB
    split
    · exact fun _ h => h
    · rfl
  have weak : ∀ {p : WAM WinReported}, OutT.Safe resA (· = L) p L (fun a L' => WinCensus st L a.held a.drives L') →
      OutT.Safe resA (winCallB c L) p L (fun a L' => WinCensus st L a.held a.drives L') := fun hp =>
    OutT.safe_weaken (fun _ => hB) hp
  have hopen : ∀ w path, OutT.Safe resA (StillHeld L) (OutT.interp winCall (winOpenPath w path)) L (WinOpening L) :=
    fun w path => onWindows_safe (winOpenPath_safe w path L (fun _ h => h))
  cases c with
  | openPath w path => exact OutT.safe_bind' (hopen w path) (fun r L' hr => OutT.safe_ret (win_add_ok h hr))
  | enumDrives w fuel =>
    refine OutT.safe_bind' (onWindows_safe (winEnumDrives_safe w conv fuel L)) ?_
    intro r L' h2
    cases r with
    | ok os =>
      refine OutT.safe_ret ⟨h.still h2.still, fun he hw => ⟨fun x hx => he.held x (h2.rest hw x hx), he.plain⟩, h2.files,
        fun hn => ?_⟩
      have := h2.count hn
      unfold WinHeld.listed
      dsimp only
      omega
    | err e => obtain rfl : L' = L := h2; exact OutT.safe_ret (.refl h)
    | panic => obtain rfl : L' = L := h2; exact OutT.safe_ret (.refl h)
  | enumVolumes beyond fuel =>
    refine OutT.safe_bind' (onWindows_safe (winEnumVolumes_safe conv beyond fuel L)) ?_
    rintro r L' rfl
    exact OutT.safe_ret (.refl h)
  | openVolume w vols path =>
    refine OutT.safe_bind' (C := fun r L' => match r with
      | some r => WinOpening L r L'
      | none => L' = L) (onWindows_safe ?_) ?_
    · unfold winOpenByVolumePath
      split
      · exact OutT.safe_ret rfl
      · split
        · exact OutT.safe_ret rfl
        · exact OutT.safe_bind' (winOpenPath_safe w _ L (fun _ h => h)) (fun r L' hr => OutT.safe_ret hr)
    · intro r L' hr
      cases r with
      | some r => exact OutT.safe_ret (win_add_ok h hr)
      | none => obtain rfl : L' = L := hr; exact OutT.safe_ret (.refl h)
  | openPartition w p => exact OutT.safe_bind' (hopen w _) (fun r L' hr => OutT.safe_ret (win_add_ok h hr))
  | close w i =>
    refine weak ?_
    unfold WinClientCall.prog WinHeld.on
    dsimp only
    split
    · rename_i o hi
      refine OutT.safe_bind' (onWindows_safe (winClose_safe w o L rfl (h.isOpen i o hi))) ?_
      rintro o' L' ⟨h1, h2, h3⟩
      have hc := countP_set (fun o : WinOpened => o.handle.dh.isSome) (b := o') hi
      rw [h1] at hc
      rcases h3 with ⟨hd, rfl⟩ | ⟨hd, k, hk, rfl⟩
      · refine OutT.safe_ret ⟨h.closed hi h1 (fun x hx => .inl hx),
          fun he _ => he.closed hi h1 (fun x hx => ⟨hx, fun hh => hh.1 hd⟩), fun x hx => .inl hx, fun hn => ?_⟩
        unfold winDriven winDriverless winMiniports
        rw [hd] at hc
        simp only [Option.isSome_none, Bool.false_eq_true, if_false] at hc
        simp only [List.countP_nil, Nat.add_zero]
        omega
      · have hheld : HoldsRes o (.file k.handle) := ⟨hd, k, hk, owned_handle k⟩
        refine OutT.safe_ret ⟨h.closed hi h1 (fun x hx => ?_), fun he _ => he.closed hi h1 (fun x hx => ?_),
          fun x hx => .inl (List.mem_filter.1 hx).1, fun hn => ?_⟩
        · by_cases hx' : x = .file k.handle
          · subst hx'; exact .inr hheld
          · exact .inl (List.mem_filter.2 ⟨hx, by simpa using hx'⟩)
        · rw [List.mem_filter] at hx
          refine ⟨hx.1, ?_⟩
          rintro ⟨_, k', hk', hx'⟩
          rw [hk] at hk'
          cases hk'
          have hl := owned_length o k hk
          rw [he.plain i o hi hd] at hl
          have hone : k.owned = [.file k.handle] := by
            cases k <;> first | rfl | simp [WinDrv.owned] at hl
          rw [hone, List.mem_singleton] at hx'
          simp [hx'] at hx
        · have := filter_res_length hn (h.isHeld hi hheld)
          unfold winDriven winDriverless winMiniports
          rw [if_pos (by cases hx : o.handle.dh with | none => exact absurd hx hd | some d => rfl)] at hc
          simp only [Option.isSome_none, Bool.false_eq_true, if_false] at hc
          simp only [List.countP_nil, Nat.add_zero]
          omega
    · exact OutT.safe_ret (.refl h)
  | drivingType i => exact weak (win_query_safe h i _ gentle_drivingType)
  | driverName i => exact weak (win_query_safe h i _ gentle_driverName)
  | ata i rw dma tf data secs =>
    cases data with
    | some b => exact weak (win_query_safe h i _ (fun h => gentle_ata h rw dma tf b secs))
    | none => exact weak (win_query_safe h i _ (fun h => gentle_ataNil h rw dma tf secs))
  | logPage i nsid logId rae size => exact weak (win_query_safe h i _ (fun h => gentle_logPage h nsid logId rae size))
  | security i rw dma p c b t => exact weak (win_query_safe h i _ (fun h => gentle_security h rw dma p c b t))
  | discover i =>
    refine weak ?_
    unfold WinClientCall.prog WinHeld.on
    dsimp only
    split
    · rename_i o hi
      refine OutT.safe_bind' (method_safe (B := (· = L)) o _ L (gentle_discovery _) rfl (h.isOpen i o hi)
        (discovery_returns _)) ?_
      rintro ⟨h', e⟩ L' ⟨h1, rfl⟩
      refine OutT.safe_ret ⟨h.replace hi h1 rfl, fun he _ => he.replace hi h1 rfl, fun x hx => .inl hx, fun _ => ?_⟩
      have hc := countP_set (fun o : WinOpened => o.handle.dh.isSome) (b := { o with handle := h' }) hi
      simp only [show h'.dh = o.handle.dh from h1] at hc
      unfold winDriven winDriverless winMiniports
      simp only [List.countP_nil, Nat.add_zero]
      omega
    · exact OutT.safe_ret (.refl h)
  | revert i d pw psid adm => exact weak (win_tcg_safe h i _)
  | defaultPassword i d => exact weak (win_tcg_safe h i _)
  | tcg i d c => exact weak (win_tcg_safe h i _)

/-- Along a sequence of calls. -/
theorem winClientRun_safe (conv : Wide → Bytes) (ctx : Ctx) (env : Prog.Env WAReq WARep) (hf : FreshHandles env)
    (calls : List WinClientCall) : ∀ (st : WinHeld) (hist : Prog.Trace WAReq WARep), WinHeldInv st (openRes hist) →
    (openRes hist).Nodup →
    resA.Ok (openRes hist) (winClientRun conv ctx env calls st hist).trace ∧
    WinHeldInv (winClientRun conv ctx env calls st hist).held (openRes (hist ++ (winClientRun conv ctx env calls st hist).trace)) ∧
    ((∀ x ∈ calls.zip (winClientRun conv ctx env calls st hist).reports, WinFinished x.1 x.2) →
      (∀ x ∈ openRes (hist ++ (winClientRun conv ctx env calls st hist).trace), x ∈ openRes hist ∨ ∃ h, x = .file h) ∧
      (openRes (hist ++ (winClientRun conv ctx env calls st hist).trace)).length + winDriven st =
        (openRes hist).length + winDriven (winClientRun conv ctx env calls st hist).held +
          winDriverless ((winClientRun conv ctx env calls st hist).reports.flatMap winReported) +
          winMiniports ((winClientRun conv ctx env calls st hist).reports.flatMap winReported)) ∧
    (WinExact st (openRes hist) →
      (∀ x ∈ calls.zip (winClientRun conv ctx env calls st hist).reports, WinWentWell x.1 x.2) →
      WinExact (winClientRun conv ctx env calls st hist).held
        (openRes (hist ++ (winClientRun conv ctx env calls st hist).trace))) := by
  induction calls with
  | nil =>
    intro st hist h hn
    simp only [winClientRun, List.append_nil]
    exact ⟨trivial, h, fun _ => ⟨fun _ h => .inl h, rfl⟩, fun he _ => he⟩
  | cons c cs ih =>
    intro st hist h hn
    have hs := OutT.safe_run (handles_sound hf) hist (win_call_safe conv ctx c st (openRes hist) h)
    rw [← openRes_after, ← openRes_after] at hs
    unfold winClientRun
    have hn' := win_run_nodup hf (c.prog conv ctx st) hist hn
    rcases hr : OutT.run env hist (c.prog conv ctx st) with ⟨o, t⟩
    rw [hr] at hn'
    dsimp only at hn'
    rw [hr] at hs
    dsimp only at hs ⊢
    obtain ⟨hok, hs⟩ := hs
    have hpost : WinHeldInv (st.afterCall o).1 (openRes (hist ++ t)) ∧
        (WinFinished c (st.afterCall o).2 → WinCensus st (openRes hist) (st.afterCall o).1 (winReported (st.afterCall o).2)
          (openRes (hist ++ t))) := by
      have hbad : winCallB c (openRes hist) (openRes (hist ++ t)) → WinHeldInv st (openRes (hist ++ t)) ∧
          (winMayOpen c = false → WinCensus st (openRes hist) st [] (openRes (hist ++ t))) := by
        intro hb
        unfold winCallB at hb
        cases hm : winMayOpen c with
        | true => rw [hm, if_pos rfl] at hb; exact ⟨h.still hb, fun h => by cases h⟩
        | false => rw [hm, if_neg (by simp)] at hb; rw [hb]; exact ⟨h, fun _ => .refl h⟩
      cases o with
      | ret a => exact ⟨hs.inv, fun _ => hs⟩
      | panic => exact ⟨(hbad hs).1, fun hw => (hbad hs).2 hw⟩
      | running => exact ⟨(hbad hs).1, fun hw => (hbad hs).2 hw⟩
    obtain ⟨i1, i2, i3, i4⟩ := ih (st.afterCall o).1 (hist ++ t) hpost.1 hn'
    rw [List.append_assoc] at i2 i3 i4
    refine ⟨?_, i2, fun hall => ?_, fun he hall => ?_⟩
    · rw [resA.ok_append]
      refine ⟨hok, ?_⟩
      rw [openRes_after, resA.after_append, ← openRes_after] at i1
      exact i1
    · rw [List.zip_cons_cons] at hall
      obtain ⟨h4, h5⟩ := i3 (fun x hx => hall x (List.mem_cons_of_mem _ hx))
      have hc := hpost.2 (hall _ (List.mem_cons_self ..))
      have h6 := hc.count hn
      refine ⟨fun x hx => ?_, ?_⟩
      · rcases h4 x hx with h7 | h7
        · exact hc.files x h7
        · exact .inr h7
      · rw [List.flatMap_cons]
        unfold winDriverless winMiniports at h5 h6 ⊢
        rw [List.countP_append, List.countP_append]
        omega
    · rw [List.zip_cons_cons] at hall
      have hc := hall _ (List.mem_cons_self ..)
      dsimp only at hc
      exact i4 ((hpost.2 hc.1).exact_ he hc.2) (fun x hx => hall x (List.mem_cons_of_mem _ hx))

theorem winHeldInv_nil (L : List WinRes) : WinHeldInv [] L :=
  ⟨(fun i o h => by simp at h), fun i j o o' x h => by simp at h⟩

/-- **C143.** Whatever calls a client makes on Windows, in any order and on closed handles too, every call of Windows that
works on a handle, a device list or a search, or gives it back, gets one that is open at that moment. -/
theorem win_no_use_after_close (conv : Wide → Bytes) (ctx : Ctx) (env : Prog.Env WAReq WARep) (hf : FreshHandles env)
    (calls : List WinClientCall) (t₁ t₂ : Prog.Trace WAReq WARep) (q : WReq) (r : WARep)
    (ht : (winClientRun conv ctx env calls [] []).trace = t₁ ++ (.sys q, r) :: t₂) (x : WinRes) (hx : winUses q = some x) :
    x ∈ openRes t₁ := by
  have h := (winClientRun_safe conv ctx env hf calls [] [] (winHeldInv_nil _) List.nodup_nil).1
  rw [ht, show openRes [] = ([] : List WinRes) from rfl, resA.ok_append] at h
  exact h.2.1 q rfl x hx

/-- **C143.** The handles a client holds are all usable: a handle with a driver has handles of Windows of its own, which are
open, and which no other handle has. -/
theorem win_held_handles_open (conv : Wide → Bytes) (ctx : Ctx) (env : Prog.Env WAReq WARep) (hf : FreshHandles env)
    (calls : List WinClientCall) :
    let r := winClientRun conv ctx env calls [] []
    (∀ (i : Nat) o, r.held[i]? = some o → o.handle.dh ≠ none → ∃ k, o.drv = some k ∧ ∀ x ∈ k.owned, x ∈ openRes r.trace) ∧
    (∀ (i j : Nat) o o' x, r.held[i]? = some o → r.held[j]? = some o' → HoldsRes o x → HoldsRes o' x → i = j) := by
  have h := (winClientRun_safe conv ctx env hf calls [] [] (winHeldInv_nil _) List.nodup_nil).2.1
  exact ⟨h.isOpen, h.distinct⟩

/-- **C144.** If every call that opens drives went well, what is open is exactly what the handles the client holds have. -/
theorem win_leak_free (conv : Wide → Bytes) (ctx : Ctx) (env : Prog.Env WAReq WARep) (hf : FreshHandles env)
    (calls : List WinClientCall)
    (hw : ∀ x ∈ calls.zip (winClientRun conv ctx env calls [] []).reports, WinWentWell x.1 x.2) (x : WinRes) :
    x ∈ openRes (winClientRun conv ctx env calls [] []).trace ↔
      ∃ o ∈ (winClientRun conv ctx env calls [] []).held, HoldsRes o x := by
  obtain ⟨_, h2, _, h3⟩ := winClientRun_safe conv ctx env hf calls [] [] (winHeldInv_nil _) List.nodup_nil
  constructor
  · intro h
    obtain ⟨i, o, hi, ho⟩ := (h3 ⟨(fun x h => by cases h), fun i o h => by simp at h⟩ hw).held x h
    exact ⟨o, List.mem_of_getElem? hi, ho⟩
  · rintro ⟨o, ho, hh⟩
    obtain ⟨i, hi⟩ := List.getElem?_of_mem ho
    exact h2.isHeld hi hh

/-- **C144.** In particular nothing is open when every handle the client was given is closed. -/
theorem win_all_closed (conv : Wide → Bytes) (ctx : Ctx) (env : Prog.Env WAReq WARep) (hf : FreshHandles env)
    (calls : List WinClientCall)
    (hw : ∀ x ∈ calls.zip (winClientRun conv ctx env calls [] []).reports, WinWentWell x.1 x.2)
    (hc : ∀ o ∈ (winClientRun conv ctx env calls [] []).held, o.handle.dh = none) :
    openRes (winClientRun conv ctx env calls [] []).trace = [] := by
  rw [List.eq_nil_iff_forall_not_mem]
  intro x h
  obtain ⟨o, ho, hh⟩ := (win_leak_free conv ctx env hf calls hw x).1 h
  exact hh.1 (hc o ho)

/-- **C145.** As long as no call that opens drives panics, device lists and searches are all given back, and the number of
open handles is the number of handles with a driver the client holds, plus one for every drive without a driver and one for
every drive of the miniport driver that was ever reported. -/
theorem win_handle_census (conv : Wide → Bytes) (ctx : Ctx) (env : Prog.Env WAReq WARep) (hf : FreshHandles env)
    (calls : List WinClientCall)
    (hw : ∀ x ∈ calls.zip (winClientRun conv ctx env calls [] []).reports, WinFinished x.1 x.2) :
    let r := winClientRun conv ctx env calls [] []
    (∀ x ∈ openRes r.trace, ∃ h, x = .file h) ∧
    (openRes r.trace).length =
      winDriven r.held + winDriverless (r.reports.flatMap winReported) + winMiniports (r.reports.flatMap winReported) := by
  obtain ⟨h1, h2⟩ := (winClientRun_safe conv ctx env hf calls [] [] (winHeldInv_nil _) List.nodup_nil).2.2.1 hw
  refine ⟨fun x hx => ?_, by simpa [winDriven, openRes] using h2⟩
  rcases h1 x hx with h | h
  · cases h
  · exact h

/-! ### Samples -/

/-- The number of a handle. -/
def resNumber : WinRes → Nat
  | .file h => h
  | .devices h => h
  | .search h => h

/-- A number no open handle has. -/
def freshNumber (h : Prog.Trace WAReq WARep) : Nat := 1 + ((openRes h).map resNumber).sum

/-- The path a handle was opened with last. -/
def pathOf (hist : Prog.Trace WAReq WARep) (h : Nat) : Bytes :=
  (hist.reverse.findSome? (fun x => match x.1 with
    | .sys (.openDevice p) => if x.2.sys.handle = h then some p else none
    | _ => none)).getD []

/-- Windows with two devices: `A`, a drive of the SCSI driver, and `B`, one no driver accepts; and one volume. -/
def sampleWinClient : Prog.Env WAReq WARep := fun hist q => match q with
  | .sys q => { sys := match q with
    | .setupClass => { handle := freshNumber hist }
    | .setupDevice _ i => if i < 2 then {} else { err := some (.errno 259) }
    | .setupInterface _ _ => {}
    | .setupDetail _ i _ => { out := leBytes 4 8 ++ [BitVec.ofNat 8 (0x41 + i), 0, 0, 0] }
    | .openDevice _ => { handle := freshNumber hist }
    | .openVolume _ => { handle := freshNumber hist }
    | .firstVolume => { handle := freshNumber hist, wide := [0x56#16, 0#16] }
    | .nextVolume _ => { err := some (.errno 18) }
    | .ioctl h code _ _ _ =>
      if pathOf hist h = [0x41#8] ∧ code = 0x4d014 then {}
      else { err := some (.errno 1) }
    | _ => {} }
  | _ => {}

theorem sampleWinClient_fresh : FreshHandles sampleWinClient := by
  intro h q x hx hmem
  have hnum : ∀ y ∈ openRes h, resNumber y < freshNumber h := by
    intro y hy
    have := mem_le_sum (List.mem_map_of_mem (f := resNumber) hy)
    unfold freshNumber
    omega
  have hx' : resNumber x = freshNumber h := by
    unfold winGives at hx
    split at hx
    · cases q <;> first | (cases hx; rfl) | cases hx
    · cases hx
  exact absurd (hnum x hmem) (by omega)

/-- Opening twice, an enumeration of volumes, commands, closing twice, asking a closed handle (which panics), a path Windows
does not take. -/
def sampleWinCalls : List WinClientCall :=
  [.openPath sampleRun [0x41#8], .enumVolumes (fun _ => 0) 5, .openPath sampleRun [0x41#8], .close sampleRun 0,
    .close sampleRun 0, .drivingType 0, .driverName 1, .security 0 false false 1 1 (zeros 512) 3,
    .security 1 false false 1 1 (zeros 512) 3, .openPath sampleRun [0#8]]

def winReportKind : Out (List WinOpened) → Option (List (Option WinDrv))
  | .ret ds => some (ds.map (fun d => d.drv))
  | _ => none

set_option maxRecDepth 20000 in
example :
    let r := winClientRun sampleConv sampleCtx sampleWinClient sampleWinCalls [] []
    (r.held.map (fun o => (o.handle.dh.isSome, o.drv)), r.reports.map winReportKind, openRes r.trace) =
      ([(false, some (.scsi 1)), (true, some (.scsi 2))],
        [some [some (.scsi 1)], some [], some [some (.scsi 2)], some [], some [], none, some [], some [], some [], some []],
        [.file 2]) := by
  decide +kernel

instance (c : WinClientCall) (r : Out (List WinOpened)) : Decidable (WinFinished c r) := by
  cases r <;> (unfold WinFinished; infer_instance)
instance (c : WinClientCall) (r : Out (List WinOpened)) : Decidable (WinWentWell c r) := by
  unfold WinWentWell; infer_instance

/-- The hypotheses of `win_leak_free` hold of that run. -/
example : FreshHandles sampleWinClient ∧
    ∀ x ∈ sampleWinCalls.zip (winClientRun sampleConv sampleCtx sampleWinClient sampleWinCalls [] []).reports,
      WinWentWell x.1 x.2 :=
  ⟨sampleWinClient_fresh, by decide +kernel⟩

/-- Both devices enumerated: the handle of the drive without a driver stays open. (A drive of the miniport driver leaves its
second handle, `nvmeWin_handle_leak`.) -/
example :
    let calls : List WinClientCall := [.enumDrives sampleRun 9, .openPath sampleRun [0x41#8]]
    let r := winClientRun sampleConv sampleCtx sampleWinClient calls [] []
    (∀ x ∈ calls.zip r.reports, WinFinished x.1 x.2) ∧
    (r.reports.map winReportKind, winDriven r.held, winDriverless (r.reports.flatMap winReported), openRes r.trace) =
      ([some [some (.scsi 2), none], some [some (.scsi 5)]], 1, 1, [.file 5, .file 4]) := by
  decide +kernel

end Dparm
