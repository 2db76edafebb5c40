import Verif.Lemmas.Client
import Verif.Props.Session
/-!
# C140, C141: descriptors along any history of calls on Linux
-/
namespace Dparm
open Spec

theorem holdsFd_unique {o : Opened} {a b : Nat} (ha : HoldsFd o a) (hb : HoldsFd o b) : a = b := by
  obtain ⟨_, i, hi⟩ := ha
  obtain ⟨_, j, hj⟩ := hb
  rw [hi] at hj
  cases hj
  rfl

/-- What the client holds against the open descriptors. -/
structure HeldInv (st : Held) (L : List Nat) : Prop where
  isOpen : ∀ (i : Nat) o, st[i]? = some o → o.handle.dh ≠ none → ∃ fd, HoldsFd o fd ∧ fd ∈ L
  distinct : ∀ (i j : Nat) o o' fd, st[i]? = some o → st[j]? = some o' → HoldsFd o fd → HoldsFd o' fd → i = j

/-- Nothing else is open. -/
def Exact (st : Held) (L : List Nat) : Prop := ∀ fd ∈ L, ∃ (i : Nat) (o : Opened), st[i]? = some o ∧ HoldsFd o fd

theorem HeldInv.still {st : Held} {L L' : List Nat} (h : HeldInv st L) (hs : Still L L') : HeldInv st L' :=
  ⟨(fun i o hi hd => by obtain ⟨fd, h1, h2⟩ := h.isOpen i o hi hd; exact ⟨fd, h1, hs fd h2⟩), h.distinct⟩

/-- What the methods of a handle need. -/
theorem HeldInv.source {st : Held} {L : List Nat} (h : HeldInv st L) {i : Nat} {o : Opened} (hi : st[i]? = some o) :
    o.handle.dh ≠ none → ∃ i fd, o.source = some (i, fd) ∧ fd ∈ L := by
  intro hd
  obtain ⟨fd, ⟨_, j, hj⟩, h2⟩ := h.isOpen i o hi hd
  exact ⟨j, fd, hj, h2⟩

/-- A new handle on a new descriptor. -/
theorem HeldInv.push {st : Held} {L : List Nat} (h : HeldInv st L) {fd : Nat} (hfd : fd ∉ L) {o : Opened} (ho : OnFd fd o) :
    HeldInv (st ++ [o]) (fd :: L) := by
  have hget : ∀ (i : Nat) (o' : Opened), (st ++ [o])[i]? = some o' → st[i]? = some o' ∨ (i = st.length ∧ o' = o) := by
    intro i o' hi
    rw [List.getElem?_append] at hi
    split at hi
    · exact .inl hi
    · rename_i hge
      have : i - st.length = 0 := by
        rcases Nat.eq_zero_or_pos (i - st.length) with h | h
        · exact h
        · rw [List.getElem?_eq_none (by simp; omega)] at hi
          cases hi
      rw [this] at hi
      simp only [List.getElem?_cons_zero, Option.some.injEq] at hi
      exact .inr ⟨by omega, hi.symm⟩
  have hold : ∀ (i : Nat) (o' : Opened) (f : Nat), st[i]? = some o' → HoldsFd o' f → f ∈ L := by
    intro i o' f hi hf
    obtain ⟨f', h1, h2⟩ := h.isOpen i o' hi hf.1
    rw [holdsFd_unique hf h1]
    exact h2
  have hnew : ∀ f, HoldsFd o f → f = fd := by
    intro f hf
    obtain ⟨i, hi⟩ := ho hf.1
    exact holdsFd_unique hf ⟨hf.1, i, hi⟩
  refine ⟨fun i o' hi hd => ?_, fun i j a b f hi hj ha hb => ?_⟩
  · rcases hget i o' hi with hi | ⟨_, rfl⟩
    · obtain ⟨f, h1, h2⟩ := h.isOpen i o' hi hd
      exact ⟨f, h1, List.mem_cons_of_mem _ h2⟩
    · obtain ⟨j, hj⟩ := ho hd
      exact ⟨fd, ⟨hd, j, hj⟩, List.mem_cons_self ..⟩
  · rcases hget i a hi with hi' | ⟨rfl, rfl⟩ <;> rcases hget j b hj with hj' | ⟨rfl, rfl⟩
    · exact h.distinct i j a b f hi' hj' ha hb
    · exact absurd (hnew f hb ▸ hold i a f hi' ha) hfd
    · exact absurd (hnew f ha ▸ hold j b f hj' hb) hfd
    · rfl

theorem Exact.push {st : Held} {L : List Nat} (h : Exact st L) {fd : Nat} {o : Opened} (ho : OnFd fd o)
    (hd : o.handle.dh ≠ none) : Exact (st ++ [o]) (fd :: L) := by
  intro f hf
  rcases List.mem_cons.1 hf with rfl | hf
  · obtain ⟨i, hi⟩ := ho hd
    exact ⟨st.length, o, by simp, hd, i, hi⟩
  · obtain ⟨i, o', h1, h2⟩ := h f hf
    refine ⟨i, o', ?_, h2⟩
    rw [List.getElem?_append_left]
    · exact h1
    · exact (List.getElem?_eq_some_iff.1 h1).1

/-- A handle replaced by one with the same driver on the same descriptor. -/
theorem HeldInv.replace {st : Held} {L : List Nat} (h : HeldInv st L) {i : Nat} {o o' : Opened} (hi : st[i]? = some o)
    (hd : o'.handle.dh = o.handle.dh) (hs : o'.source = o.source) : HeldInv (st.set i o') L := by
  have hh : ∀ f, HoldsFd o' f ↔ HoldsFd o f := by intro f; unfold HoldsFd; rw [hd, hs]
  have hget : ∀ (k : Nat) (a : Opened), (st.set i o')[k]? = some a → ∃ b, st[k]? = some b ∧ (∀ f, HoldsFd a f ↔ HoldsFd b f) ∧
      a.handle.dh = b.handle.dh := by
    intro k a hk
    rw [List.getElem?_set] at hk
    split at hk
    · rename_i hik
      subst hik
      split at hk
      · cases hk
        exact ⟨o, hi, hh, hd⟩
      · cases hk
    · exact ⟨a, hk, fun _ => Iff.rfl, rfl⟩
  refine ⟨fun k a hk hda => ?_, fun k l a b f hk hl ha hb => ?_⟩
  · obtain ⟨b, h1, h2, h3⟩ := hget k a hk
    obtain ⟨f, h4, h5⟩ := h.isOpen k b h1 (h3 ▸ hda)
    exact ⟨f, (h2 f).2 h4, h5⟩
  · obtain ⟨a', h1, h2, _⟩ := hget k a hk
    obtain ⟨b', h3, h4, _⟩ := hget l b hl
    exact h.distinct k l a' b' f h1 h3 ((h2 f).1 ha) ((h4 f).1 hb)

theorem Exact.replace {st : Held} {L : List Nat} (h : Exact st L) {i : Nat} {o o' : Opened} (hi : st[i]? = some o)
    (hd : o'.handle.dh = o.handle.dh) (hs : o'.source = o.source) : Exact (st.set i o') L := by
  intro f hf
  obtain ⟨k, a, h1, h2⟩ := h f hf
  by_cases hik : i = k
  · subst hik
    rw [hi] at h1
    cases h1
    refine ⟨i, o', ?_, ?_⟩
    · rw [List.getElem?_set_self (List.getElem?_eq_some_iff.1 hi).1]
    · unfold HoldsFd; rw [hd, hs]; exact h2
  · exact ⟨k, a, by rw [List.getElem?_set_ne hik]; exact h1, h2⟩

/-- A closed handle; its descriptor is gone. -/
theorem HeldInv.closed {st : Held} {L : List Nat} (h : HeldInv st L) {i : Nat} {o o' : Opened} (hi : st[i]? = some o)
    (hd : o'.handle.dh = none) {L' : List Nat} (hL : ∀ fd, fd ∈ L' ↔ fd ∈ L ∧ ¬ HoldsFd o fd) :
    HeldInv (st.set i o') L' := by
  have hget : ∀ (k : Nat) (a : Opened), (st.set i o')[k]? = some a → a.handle.dh ≠ none → i ≠ k ∧ st[k]? = some a := by
    intro k a hk hda
    rw [List.getElem?_set] at hk
    split at hk
    · split at hk
      · cases hk
        exact absurd hd hda
      · cases hk
    · rename_i hik
      exact ⟨hik, hk⟩
  refine ⟨fun k a hk hda => ?_, fun k l a b f hk hl ha hb => ?_⟩
  · obtain ⟨hik, hk⟩ := hget k a hk hda
    obtain ⟨f, h1, h2⟩ := h.isOpen k a hk hda
    exact ⟨f, h1, (hL f).2 ⟨h2, fun ho => hik (h.distinct i k o a f hi hk ho h1)⟩⟩
  · exact h.distinct k l a b f (hget k a hk ha.1).2 (hget l b hl hb.1).2 ha hb

theorem Exact.closed {st : Held} {L : List Nat} (h : Exact st L) {i : Nat} {o o' : Opened} (hi : st[i]? = some o)
    {L' : List Nat} (hL : ∀ fd, fd ∈ L' ↔ fd ∈ L ∧ ¬ HoldsFd o fd) : Exact (st.set i o') L' := by
  intro f hf
  obtain ⟨hf, hno⟩ := (hL f).1 hf
  obtain ⟨k, a, h1, h2⟩ := h f hf
  by_cases hik : i = k
  · subst hik
    rw [hi] at h1
    cases h1
    exact absurd h2 hno
  · exact ⟨k, a, by rw [List.getElem?_set_ne hik]; exact h1, h2⟩

/-- What a call may leave when it does not return. -/
def callB (c : LinuxCall) (L L' : List Nat) : Prop :=
  if mayOpen c then Still L L' else L' = L

/-- From `st` and `L` to `st'` and `L'` while `ds` are reported: the invariant, and the number of descriptors. -/
structure Census (st : Held) (L : List Nat) (st' : Held) (ds : List Opened) (L' : List Nat) : Prop where
  inv : HeldInv st' L'
  exact_ : Exact st L → (∀ d ∈ ds, d.handle.dh ≠ none) → Exact st' L'
  count : L.Nodup → L'.length + driven st = L.length + driven st' + driverless ds

theorem Census.refl {st : Held} {L : List Nat} (h : HeldInv st L) : Census st L st [] L :=
  ⟨h, fun he _ => he, fun _ => rfl⟩

theorem countP_set {α : Type} (p : α → Bool) {l : List α} {i : Nat} {a b : α} (h : l[i]? = some a) :
    (l.set i b).countP p + (if p a then 1 else 0) = l.countP p + (if p b then 1 else 0) := by
  induction l generalizing i with
  | nil => simp at h
  | cons x l ih =>
    cases i with
    | zero =>
      simp only [List.getElem?_cons_zero, Option.some.injEq] at h
      subst h
      rw [List.set_cons_zero, List.countP_cons, List.countP_cons]
      omega
    | succ i =>
      rw [List.getElem?_cons_succ] at h
      have := ih h
      rw [List.set_cons_succ, List.countP_cons, List.countP_cons]
      omega

/-- What a call leaves when it returns. -/
def callK (c : LinuxCall) (st : Held) (L : List Nat) (a : Reported) (L' : List Nat) : Prop :=
  HeldInv a.held L' ∧ ((∀ m, c ≠ .enumVolumes m) → Census st L a.held a.drives L')

theorem add_ok {st : Held} {L L' : List Nat} (h : HeldInv st L) {r : Res Opened} (hr : Opening L r L') :
    Census st L (st.add r).held (st.add r).drives L' := by
  cases r with
  | ok o =>
    obtain ⟨fd, h1, rfl, h2⟩ := hr
    refine ⟨h.push h1 h2, fun he hd => he.push h2 (hd o (List.mem_singleton.2 rfl)),
      fun _ => ?_⟩
    unfold Held.add driven driverless
    simp only [List.countP_append, List.countP_cons, List.countP_nil, List.length_cons]
    cases o.handle.dh <;> simp <;> omega
  | err e => rw [show L' = L from hr]; exact .refl h
  | panic => rw [show L' = L from hr]; exact .refl h

theorem query_safe {st : Held} {L : List Nat} (h : HeldInv st L) (i : Nat) {α : Type} (p : Handle → DrvM α)
    (hp : ∀ h, Gentle h (p h)) :
    OutT.Safe fdsA (· = L) (st.query i p) L (fun a L' => Census st L a.held a.drives L') := by
  unfold Held.query Held.on
  split
  · rename_i o hi
    refine OutT.safe_bind' (onLinux_safe (onHandle_safe (B := (· = L)) o _ L (hp _) rfl (h.source hi) (OutT.returns_any _))) ?_
    rintro a L' ⟨_, rfl⟩
    exact OutT.safe_ret (.refl h)
  · exact OutT.safe_ret (.refl h)

theorem tcg_safe {st : Held} {L : List Nat} (h : HeldInv st L) (i : Nat) {α : Type} (p : TcgM α) :
    OutT.Safe fdsA (· = L) (st.on i (fun o => do
      let _ ← tcgOnLinux o p
      OutT.ret { held := st })) L (fun a L' => Census st L a.held a.drives L') := by
  unfold Held.on
  split
  · rename_i o hi
    refine OutT.safe_bind' (tcgOnLinux_safe o p L rfl (h.source hi)) ?_
    rintro a L' rfl
    exact OutT.safe_ret (.refl h)
  · exact OutT.safe_ret (.refl h)

/-- Every call keeps the protocol. -/
theorem call_safe (order : List (Bytes × Bytes) → List (Bytes × Bytes)) (ctx : Ctx) (c : LinuxCall) (st : Held) (L : List Nat)
    (h : HeldInv st L) : OutT.Safe fdsA (callB c L) (c.prog order ctx st) L (callK c st L) := by
  have hB : ∀ {L'}, L' = L → callB c L L' := by
    rintro L' rfl
    unfold callB
    split
    · exact fun _ h => h
    · rfl
  have weak : ∀ {p : AM Reported}, OutT.Safe fdsA (· = L) p L
      (fun a L' => Census st L a.held a.drives L') →
      OutT.Safe fdsA (callB c L) p L (callK c st L) := fun hp =>
    OutT.safe_mono (OutT.safe_weaken (fun _ => hB) hp) (fun a L' h => ⟨h.inv, fun _ => h⟩)
  have hopen : ∀ path, OutT.Safe fdsA (Still L) (OutT.interp sysCall (onLinux (openByPath 2 order path))) L (Opening L) :=
    fun path => onLinux_safe (openByPath_safe 2 order path L (fun _ h => h) (fun fd x h => List.mem_cons_of_mem _ h))
  have hadd : ∀ {r L'}, Opening L r L' → callK c st L (st.add r) L' := fun hr =>
    ⟨(add_ok h hr).inv, fun _ => add_ok h hr⟩
  cases c with
  | openPath path => exact OutT.safe_bind' (hopen path) (fun r L' hr => OutT.safe_ret (hadd hr))
  | enumDrives =>
    refine OutT.safe_bind' (onLinux_safe (enumDrives_safe 2 order L)) ?_
    intro r L' h2
    cases r with
    | ok os =>
      exact OutT.safe_ret ⟨h.still h2.still, fun _ => ⟨h.still h2.still, fun he hw fd hfd => he fd (h2.rest hw fd hfd),
        fun hn => (by have := h2.count hn; unfold Held.listed; dsimp only; omega)⟩⟩
    | err e => obtain rfl : L' = L := h2; exact OutT.safe_ret ⟨h, fun _ => .refl h⟩
    | panic => obtain rfl : L' = L := h2; exact OutT.safe_ret ⟨h, fun _ => .refl h⟩
  | enumVolumes m =>
    exact OutT.safe_bind' (onLinux_safe (enumVolumes_safe m L)) (fun r L' h1 =>
      OutT.safe_ret ⟨h.still h1, fun hw => absurd rfl (hw m)⟩)
  | openVolume vols path =>
    refine OutT.safe_bind' (C := fun r L' => match r with
      | some r => Opening L r L'
      | none => L' = L) (onLinux_safe ?_) ?_
    · unfold openDriveByVolumePath
      dsimp only
      split
      · exact OutT.safe_ret rfl
      · split
        · exact OutT.safe_bind' (openByPath_safe 2 order _ L (fun _ h => h) (fun fd x h => List.mem_cons_of_mem _ h)) (fun r L' hr => OutT.safe_ret hr)
        · exact OutT.safe_ret rfl
    · intro r L' hr
      cases r with
      | some r => exact OutT.safe_ret (hadd hr)
      | none => obtain rfl : L' = L := hr; exact OutT.safe_ret ⟨h, fun _ => .refl h⟩
  | openPartition p => exact OutT.safe_bind' (hopen p.parentPath) (fun r L' hr => OutT.safe_ret (hadd hr))
  | close i =>
    refine weak ?_
    unfold LinuxCall.prog Held.on
    dsimp only
    split
    · rename_i o hi
      refine OutT.safe_bind' (onLinux_safe (close_safe o L rfl (h.source hi))) ?_
      rintro o' L' ⟨h1, h2, h3⟩
      have hL : ∀ fd, fd ∈ L' ↔ fd ∈ L ∧ ¬ HoldsFd o fd := by
        intro fd
        rcases h3 with ⟨hd, rfl⟩ | ⟨hd, j, f, hj, rfl⟩
        · exact ⟨fun h => ⟨h, fun hh => hh.1 hd⟩, fun h => h.1⟩
        · rw [List.mem_filter]
          refine and_congr_right (fun _ => ?_)
          simp only [ne_eq, decide_not, Bool.not_eq_eq_eq_not, Bool.not_true, decide_eq_false_iff_not]
          refine not_congr ⟨?_, fun hh => holdsFd_unique hh ⟨hd, j, hj⟩⟩
          rintro rfl
          exact ⟨hd, j, hj⟩
      refine OutT.safe_ret ⟨h.closed hi h1 hL, fun he _ => he.closed hi hL, fun hn => ?_⟩
      · have hc := countP_set (fun o : Opened => o.handle.dh.isSome) (b := o') hi
        rw [h1] at hc
        unfold driven driverless
        rcases h3 with ⟨hd, rfl⟩ | ⟨hd, j, f, hj, rfl⟩
        · rw [hd] at hc
          simp only [Option.isSome_none, Bool.false_eq_true, if_false] at hc
          simp only [List.countP_nil, Nat.add_zero]
          omega
        · obtain ⟨f', h4, h5⟩ := h.isOpen i o hi hd
          rw [holdsFd_unique h4 ⟨hd, j, hj⟩] at h5
          have := filter_ne_length hn h5
          rw [if_pos (by cases hx : o.handle.dh with | none => exact absurd hx hd | some d => rfl)] at hc
          simp only [Option.isSome_none, Bool.false_eq_true, if_false] at hc
          simp only [List.countP_nil, Nat.add_zero]
          omega
    · exact OutT.safe_ret (.refl h)
  | drivingType i => exact weak (query_safe h i _ gentle_drivingType)
  | driverName i => exact weak (query_safe h i _ gentle_driverName)
  | ata i rw dma tf data secs =>
    cases data with
    | some b => exact weak (query_safe h i _ (fun h => gentle_ata h rw dma tf b secs))
    | none => exact weak (query_safe h i _ (fun h => gentle_ataNil h rw dma tf secs))
  | logPage i nsid logId rae size => exact weak (query_safe h i _ (fun h => gentle_logPage h nsid logId rae size))
  | security i rw dma p c b t => exact weak (query_safe h i _ (fun h => gentle_security h rw dma p c b t))
  | discover i =>
    refine weak ?_
    unfold LinuxCall.prog Held.on
    dsimp only
    split
    · rename_i o hi
      refine OutT.safe_bind' (onLinux_safe (onHandle_safe (B := (· = L)) o _ L (gentle_discovery _) rfl (h.source hi)
        (discovery_returns _))) ?_
      rintro ⟨h', e⟩ L' ⟨h1, rfl⟩
      refine OutT.safe_ret ⟨h.replace hi h1 rfl, fun he _ => he.replace hi h1 rfl, fun _ => ?_⟩
      have hc := countP_set (fun o : Opened => o.handle.dh.isSome) (b := { o with handle := h' }) hi
      simp only [show h'.dh = o.handle.dh from h1] at hc
      unfold driven driverless
      simp only [List.countP_nil, Nat.add_zero]
      omega
    · exact OutT.safe_ret (.refl h)
  | revert i d pw psid adm => exact weak (tcg_safe h i _)
  | defaultPassword i d => exact weak (tcg_safe h i _)
  | tcg i d c => exact weak (tcg_safe h i _)

/-- What `EnumVolumes` asks of the factory: it opens devices and closes none. -/
def volumeAsk : FReq → Prop
  | .openDev _ => True
  | q => isProbe q

theorem enumVolumes_asks (m : Mounts) : OutT.Asks volumeAsk (enumVolumes m) := by
  have hb : ∀ fd path, OutT.Asks volumeAsk (readBasicInfo fd path) := fun fd path =>
    OutT.asks_mono (fun q hq => by cases q <;> first | exact trivial | exact hq) (readBasicInfo_asks fd path)
  have hp : ∀ parent, OutT.Asks volumeAsk (parentInfo parent) := by
    intro parent
    unfold parentInfo
    refine OutT.asks_bind (OutT.asks_ask trivial) (fun r => ?_)
    split
    · exact OutT.asks_ret _
    · refine OutT.asks_bind (hb _ _) (fun b => ?_)
      split <;> exact OutT.asks_ret _
  have hl : ∀ vols line, OutT.Asks volumeAsk (volLine vols line) := by
    intro vols line
    unfold volLine
    dsimp only
    split
    · exact OutT.asks_ret _
    · refine OutT.asks_bind (hp _) (fun b => ?_)
      split
      · exact OutT.asks_ret _
      · refine OutT.asks_bind (OutT.asks_lift _) (fun x => ?_)
        split <;> exact OutT.asks_ret _
  have hr : ∀ lines vols, OutT.Asks volumeAsk (volLoop lines vols) := by
    intro lines
    induction lines with
    | nil => intro vols; exact OutT.asks_ret _
    | cons l rest ih =>
      intro vols
      obtain ⟨line, e⟩ := l
      unfold volLoop
      refine OutT.asks_bind (hl _ _) (fun v => ?_)
      split
      · exact OutT.asks_ret _
      · exact ih v
  unfold enumVolumes
  split
  · exact OutT.asks_ret _
  · exact hr _ _

/-- A call that closes nothing. -/
def closesNothing : AReq → Prop
  | .sys (.os (.closeFd _)) => False
  | _ => True

theorem enumVolumes_closes (m : Mounts) : OutT.Asks closesNothing (OutT.interp sysCall (onLinux (enumVolumes m))) := by
  refine OutT.asks_interp (A := fun q => closesNothing (.sys q)) sysCall _
    (OutT.asks_interp linuxStep _ (enumVolumes_asks m) ?_) ?_
  · intro q hq
    cases q <;> first | exact hq.elim | exact OutT.asks_bind (OutT.asks_ask trivial) (fun r => OutT.asks_ret _)
  · intro q hq
    exact OutT.asks_bind (OutT.asks_ask hq) (fun r => OutT.asks_ret _)

theorem openFds_grow (t : Prog.Trace AReq ARep) (ht : ∀ x ∈ t, closesNothing x.1) : ∀ h : Prog.Trace AReq ARep,
    (openFds (h ++ t)).length = (openFds h).length + opensIn t := by
  induction t with
  | nil => intro h; simp [opensIn]
  | cons x t ih =>
    intro h
    have h1 := ih (fun y hy => ht y (List.mem_cons_of_mem _ hy)) (h ++ [x])
    rw [List.append_assoc, List.singleton_append] at h1
    have h2 := ht x (List.mem_cons_self ..)
    have h3 : openFds (h ++ [x]) = fdsAfter (openFds h) x := by
      rw [openFds_after, fdsA.after_append, ← openFds_after]; rfl
    rw [h1, h3]
    obtain ⟨q, r⟩ := x
    unfold opensIn
    rw [List.countP_cons]
    unfold fdsAfter
    dsimp only at h2 ⊢
    split
    · dsimp only
      cases r.sys.os.err <;> simp <;> omega
    · exact h2.elim
    · rename_i h4 h5
      split
      · exact absurd rfl (h4 _)
      · simp

/-- `EnumVolumes` leaves every device it opened open, whether it returns or panics. -/
theorem enumVolumes_call (order : List (Bytes × Bytes) → List (Bytes × Bytes)) (ctx : Ctx) (env : Prog.Env AReq ARep)
    (m : Mounts) (st : Held) (hist : Prog.Trace AReq ARep) :
    let r := OutT.run env hist (LinuxCall.prog order ctx st (.enumVolumes m))
    (st.afterCall r.1).1 = st ∧ reported (st.afterCall r.1).2 = [] ∧
      (openFds (hist ++ r.2)).length = (openFds hist).length + opensIn r.2 := by
  have hc : OutT.Asks closesNothing (LinuxCall.prog order ctx st (.enumVolumes m)) :=
    OutT.asks_bind (enumVolumes_closes m) (fun r => OutT.asks_ret _)
  refine ⟨?_, ?_, openFds_grow _ (OutT.asks_run hc env hist) hist⟩
  all_goals
    unfold LinuxCall.prog
    dsimp only
    rw [OutT.run_bind]
    rcases OutT.run env hist (OutT.interp sysCall (onLinux (Dparm.enumVolumes m))) with ⟨o, t⟩
    cases o <;> rfl

/-- Along a sequence of calls. -/
theorem clientRun_safe (order : List (Bytes × Bytes) → List (Bytes × Bytes)) (ctx : Ctx) (env : Prog.Env AReq ARep)
    (hf : FreshFds env) (calls : List LinuxCall) : ∀ (st : Held) (hist : Prog.Trace AReq ARep), HeldInv st (openFds hist) →
    (openFds hist).Nodup →
    fdsA.Ok (openFds hist) (clientRun order ctx env calls st hist).trace ∧
    HeldInv (clientRun order ctx env calls st hist).held (openFds (hist ++ (clientRun order ctx env calls st hist).trace)) ∧
    (Exact st (openFds hist) →
      (∀ x ∈ calls.zip (clientRun order ctx env calls st hist).reports, WentWell x.1 x.2) →
      Exact (clientRun order ctx env calls st hist).held (openFds (hist ++ (clientRun order ctx env calls st hist).trace))) ∧
    ((∀ x ∈ calls.zip (clientRun order ctx env calls st hist).reports, Finished x.1 x.2) →
      (openFds (hist ++ (clientRun order ctx env calls st hist).trace)).length + driven st =
        (openFds hist).length + driven (clientRun order ctx env calls st hist).held +
          driverless ((clientRun order ctx env calls st hist).reports.flatMap reported) +
          ((calls.zip (clientSteps order ctx env calls st hist)).map (fun x => volumeOpens x.1 x.2)).sum) := by
  induction calls with
  | nil =>
    intro st hist h hn
    simp only [clientRun, List.append_nil]
    exact ⟨trivial, h, fun he _ => he, fun _ => rfl⟩
  | cons c cs ih =>
    intro st hist h hn
    have hs := OutT.safe_run (fresh_sound hf) hist (call_safe order ctx c st (openFds hist) h)
    rw [← openFds_after, ← openFds_after] at hs
    have hvol := fun m (hm : c = .enumVolumes m) => hm ▸ enumVolumes_call order ctx env m st hist
    unfold clientRun clientSteps
    have hn' := run_nodup hf (c.prog order ctx st) hist hn
    rcases hr : OutT.run env hist (c.prog order ctx st) with ⟨o, t⟩
    rw [hr] at hn'
    dsimp only at hn'
    rw [hr] at hs hvol
    dsimp only at hs hvol ⊢
    obtain ⟨hok, hs⟩ := hs
    have hpost : HeldInv (st.afterCall o).1 (openFds (hist ++ t)) ∧
        ((∀ m, c ≠ .enumVolumes m) → Finished c (st.afterCall o).2 → Census st (openFds hist) (st.afterCall o).1 (reported (st.afterCall o).2)
          (openFds (hist ++ t))) := by
      have hbad : callB c (openFds hist) (openFds (hist ++ t)) → HeldInv st (openFds (hist ++ t)) ∧
          (mayOpen c = false → Census st (openFds hist) st [] (openFds (hist ++ t))) := by
        intro hb
        unfold callB at hb
        cases hm : mayOpen c with
        | true => rw [hm, if_pos rfl] at hb; exact ⟨h.still hb, fun h => by cases h⟩
        | false => rw [hm, if_neg (by simp)] at hb; rw [hb]; exact ⟨h, fun _ => .refl h⟩
      cases o with
      | ret a =>
        exact ⟨hs.1, fun hv _ => hs.2 hv⟩
      | panic =>
        refine ⟨(hbad hs).1, fun hv hw => (hbad hs).2 ?_⟩
        cases c <;> first | exact absurd rfl (hv _) | exact hw
      | running =>
        refine ⟨(hbad hs).1, fun hv hw => (hbad hs).2 ?_⟩
        cases c <;> first | exact absurd rfl (hv _) | exact hw
    obtain ⟨i1, i2, i3, i4⟩ := ih (st.afterCall o).1 (hist ++ t) hpost.1 hn'
    rw [List.append_assoc] at i2 i3 i4
    refine ⟨?_, i2, fun he hall => ?_, fun hall => ?_⟩
    · rw [fdsA.ok_append]
      refine ⟨hok, ?_⟩
      rw [openFds_after, fdsA.after_append, ← openFds_after] at i1
      exact i1
    · rw [List.zip_cons_cons] at hall
      have hc := hall _ (List.mem_cons_self ..)
      dsimp only at hc
      have hnv : ∀ m, c ≠ .enumVolumes m := by rintro m rfl; exact hc
      have hfin : Finished c (st.afterCall o).2 ∧ ∀ d ∈ reported (st.afterCall o).2, d.handle.dh ≠ none := by
        generalize (st.afterCall o).2 = z at hc
        cases z with
        | ret ds => cases c <;> first | exact hc.elim | exact ⟨trivial, hc⟩
        | panic => cases c <;> first | exact hc.elim | (refine ⟨hc, fun d hd => ?_⟩; cases hd)
        | running => cases c <;> first | exact hc.elim | (refine ⟨hc, fun d hd => ?_⟩; cases hd)
      exact i3 ((hpost.2 hnv hfin.1).exact_ he hfin.2) (fun x hx => hall x (List.mem_cons_of_mem _ hx))
    · rw [List.zip_cons_cons] at hall
      have h5 := i4 (fun x hx => hall x (List.mem_cons_of_mem _ hx))
      rw [List.flatMap_cons, List.zip_cons_cons, List.map_cons, List.sum_cons]
      by_cases hv : ∃ m, c = .enumVolumes m
      · obtain ⟨m, hv⟩ := hv
        obtain ⟨v1, v2, v3⟩ := hvol m hv
        subst hv
        rw [v1] at h5
        rw [v2, List.nil_append, v1, show volumeOpens (.enumVolumes m) t = opensIn t from rfl]
        omega
      · have hv : ∀ m, c ≠ .enumVolumes m := fun m hm => hv ⟨m, hm⟩
        have h6 := (hpost.2 hv (hall _ (List.mem_cons_self ..))).count hn
        have h7 : volumeOpens c t = 0 := by
          cases c <;> first | exact absurd rfl (hv _) | rfl
        rw [h7]
        unfold driverless at h5 h6 ⊢
        rw [List.countP_append]
        omega

theorem heldInv_nil (L : List Nat) : HeldInv [] L := ⟨(fun i o h => by simp at h), fun i j o o' fd h => by simp at h⟩

/-- **C140.** Whatever calls a client makes, in any order and on closed handles too, every system call that works on a
descriptor or closes it works on one that is open at that moment: nothing is used after it was closed, and nothing is closed
twice. -/
theorem no_use_after_close (order : List (Bytes × Bytes) → List (Bytes × Bytes)) (ctx : Ctx) (env : Prog.Env AReq ARep)
    (hf : FreshFds env) (calls : List LinuxCall) (t₁ t₂ : Prog.Trace AReq ARep) (x : AReq × ARep)
    (ht : (clientRun order ctx env calls [] []).trace = t₁ ++ x :: t₂) (fd : Nat) (hx : usesFd x.1 = some fd) :
    fd ∈ openFds t₁ := by
  have h := (clientRun_safe order ctx env hf calls [] [] (heldInv_nil _) List.nodup_nil).1
  rw [ht, show openFds [] = ([] : List Nat) from rfl, fdsA.ok_append] at h
  exact h.2.1 fd hx

/-- **C140.** The handles a client holds are all usable: a handle with a driver has a descriptor of its own, which is open,
and which no other handle has. -/
theorem held_handles_open (order : List (Bytes × Bytes) → List (Bytes × Bytes)) (ctx : Ctx) (env : Prog.Env AReq ARep)
    (hf : FreshFds env) (calls : List LinuxCall) :
    let r := clientRun order ctx env calls [] []
    (∀ (i : Nat) o, r.held[i]? = some o → o.handle.dh ≠ none → ∃ fd, HoldsFd o fd ∧ fd ∈ openFds r.trace) ∧
    (∀ (i j : Nat) o o' fd, r.held[i]? = some o → r.held[j]? = some o' → HoldsFd o fd → HoldsFd o' fd → i = j) := by
  have h := (clientRun_safe order ctx env hf calls [] [] (heldInv_nil _) List.nodup_nil).2.1
  exact ⟨h.isOpen, h.distinct⟩

/-- **C141.** If every call that opens drives went well, the open descriptors are exactly those of the handles the client
holds: enumerations leave nothing open, and a closed handle has given its descriptor back. -/
theorem leak_free (order : List (Bytes × Bytes) → List (Bytes × Bytes)) (ctx : Ctx) (env : Prog.Env AReq ARep)
    (hf : FreshFds env) (calls : List LinuxCall)
    (hw : ∀ x ∈ calls.zip (clientRun order ctx env calls [] []).reports, WentWell x.1 x.2) (fd : Nat) :
    fd ∈ openFds (clientRun order ctx env calls [] []).trace ↔
      ∃ o ∈ (clientRun order ctx env calls [] []).held, HoldsFd o fd := by
  obtain ⟨_, h2, h3, _⟩ := clientRun_safe order ctx env hf calls [] [] (heldInv_nil _) List.nodup_nil
  constructor
  · intro h
    obtain ⟨i, o, hi, ho⟩ := h3 (fun fd h => by cases h) hw fd h
    exact ⟨o, List.mem_of_getElem? hi, ho⟩
  · rintro ⟨o, ho, hh⟩
    obtain ⟨i, hi⟩ := List.getElem?_of_mem ho
    obtain ⟨f, h4, h5⟩ := h2.isOpen i o hi hh.1
    rw [holdsFd_unique hh h4]
    exact h5

/-- **C141.** In particular nothing is open when every handle the client was given is closed. -/
theorem all_closed (order : List (Bytes × Bytes) → List (Bytes × Bytes)) (ctx : Ctx) (env : Prog.Env AReq ARep)
    (hf : FreshFds env) (calls : List LinuxCall)
    (hw : ∀ x ∈ calls.zip (clientRun order ctx env calls [] []).reports, WentWell x.1 x.2)
    (hc : ∀ o ∈ (clientRun order ctx env calls [] []).held, o.handle.dh = none) :
    openFds (clientRun order ctx env calls [] []).trace = [] := by
  rw [List.eq_nil_iff_forall_not_mem]
  intro fd h
  obtain ⟨o, ho, hh⟩ := (leak_free order ctx env hf calls hw fd).1 h
  exact hh.1 (hc o ho)

/-- The exchanges of the calls, one after the other, are those of the sequence. -/
theorem clientSteps_flatten (order : List (Bytes × Bytes) → List (Bytes × Bytes)) (ctx : Ctx) (env : Prog.Env AReq ARep)
    (calls : List LinuxCall) : ∀ (st : Held) (hist : Prog.Trace AReq ARep),
    (clientSteps order ctx env calls st hist).flatten = (clientRun order ctx env calls st hist).trace := by
  induction calls with
  | nil => intro st hist; rfl
  | cons c cs ih =>
    intro st hist
    unfold clientSteps clientRun
    rw [List.flatten_cons, ih]

/-- **C142.** The price of a drive that no driver accepts, and of listing the volumes: as long as no other call that opens
drives panics, the number of open descriptors is the number of handles with a driver the client holds, plus the number of
drives without a driver that were ever reported, plus the number of devices the calls of `EnumVolumes` opened. -/
theorem descriptor_census (order : List (Bytes × Bytes) → List (Bytes × Bytes)) (ctx : Ctx) (env : Prog.Env AReq ARep)
    (hf : FreshFds env) (calls : List LinuxCall)
    (hw : ∀ x ∈ calls.zip (clientRun order ctx env calls [] []).reports, Finished x.1 x.2) :
    (openFds (clientRun order ctx env calls [] []).trace).length =
      driven (clientRun order ctx env calls [] []).held +
        driverless ((clientRun order ctx env calls [] []).reports.flatMap reported) +
        ((calls.zip (clientSteps order ctx env calls [] [])).map (fun x => volumeOpens x.1 x.2)).sum ∧
    (clientSteps order ctx env calls [] []).flatten = (clientRun order ctx env calls [] []).trace := by
  have h := (clientRun_safe order ctx env hf calls [] [] (heldInv_nil _) List.nodup_nil).2.2.2 hw
  exact ⟨(by simpa [driven, openFds] using h), clientSteps_flatten ..⟩

/-- A system with one ATA drive; every `open` gives a new descriptor. -/
def sampleClient : Prog.Env AReq ARep := fun h q => match q with
  | .sys (.os (.readDir p)) => if p = ascii "/sys/block" then { sys := { os := { names := [ascii "sda"] } } }
      else { sys := { os := { err := some (.errno 2) } } }
  | .sys (.os (.stat _)) => { sys := { os := { num := 0o060660 } } }
  | .sys (.os (.openDev p)) => if p = ascii "/dev/sda" then { sys := { os := { fd := 3 + (openFds h).sum } } }
      else { sys := { os := { err := some (.errno 2) } } }
  | .sys (.os (.closeFd _)) => {}
  | .sys (.os _) => { sys := { os := { err := some (.errno 5) } } }
  | .sys .place => { sys := { addr := 4096, base := 8192, base' := 16384 } }
  | .sys (.nvme ..) => { sys := { nv := { errno := 25 } } }
  | .sys (.nvmeIo ..) => {}
  | .sys (.sgIo _ q) => if isAtaCommand q.cdb 0xec then { sys := { sg := { data := zeros 54 ++ ascii "oMed l1" } } }
      else { sys := { sg := { err := some (.errno 22) } } }
  | .now => {}
  | .sleep _ => {}

theorem mem_le_sum {n : Nat} {l : List Nat} (h : n ∈ l) : n ≤ l.sum := by
  induction l with
  | nil => cases h
  | cons a l ih =>
    rw [List.sum_cons]
    rcases List.mem_cons.1 h with rfl | h
    · omega
    · have := ih h
      omega

theorem sampleClient_fresh : FreshFds sampleClient := by
  intro h path herr hmem
  have hp : path = ascii "/dev/sda" := by
    unfold sampleClient at herr
    dsimp only at herr
    split at herr
    · assumption
    · cases herr
  subst hp
  have hfd : (sampleClient h (.sys (.os (.openDev (ascii "/dev/sda"))))).sys.os.fd = 3 + (openFds h).sum := by
    unfold sampleClient
    dsimp only
    rw [if_pos rfl]
  rw [hfd] at hmem
  have := mem_le_sum hmem
  omega

/-- Two openings, an enumeration, commands, closing twice, asking a closed handle (which panics), a path that does not
exist. -/
def sampleCalls : List LinuxCall :=
  [.openPath (ascii "/dev/sda"), .enumDrives, .openPath (ascii "/dev/sda"), .close 0, .close 0, .drivingType 0, .driverName 1,
    .security 0 false false 1 1 (zeros 512) 3, .openPath (ascii "/dev/sdz")]

def reportKind : Out (List Opened) → Option (List Bool)
  | .ret ds => some (ds.map (fun d => d.handle.dh.isSome))
  | _ => none

set_option maxRecDepth 20000 in
example :
    let r := clientRun id sampleCtx sampleClient sampleCalls [] []
    (r.held.map (fun o => (o.handle.dh.isSome, o.source)), r.reports.map reportKind, openFds r.trace) =
      ([(false, some (1, 3)), (true, some (1, 6))],
        [some [true], some [true], some [true], some [], some [], none, some [], some [], some []], [6]) := by
  decide +kernel

instance (c : LinuxCall) (r : Out (List Opened)) : Decidable (WentWell c r) := by
  cases c <;> cases r <;> (unfold WentWell; infer_instance)

/-- The hypotheses of `leak_free` hold of that run. -/
example : FreshFds sampleClient ∧
    ∀ x ∈ sampleCalls.zip (clientRun id sampleCtx sampleClient sampleCalls [] []).reports, WentWell x.1 x.2 :=
  ⟨sampleClient_fresh, by decide +kernel⟩

/-- The same system with a drive that no driver accepts. -/
def sampleRefused : Prog.Env AReq ARep := fun h q => match q with
  | .sys (.sgIo ..) => { sys := { sg := { err := some (.errno 22) } } }
  | q => sampleClient h q

theorem sampleRefused_fresh : FreshFds sampleRefused := fun h path => sampleClient_fresh h path

/-- Opened, closed and enumerated: two descriptors stay. -/
example :
    let r := clientRun id sampleCtx sampleRefused [.openPath (ascii "/dev/sda"), .close 0, .enumDrives] [] []
    (r.reports.map reportKind, driven r.held, driverless (r.reports.flatMap reported), openFds r.trace) =
      ([some [false], some [], some [false]], 0, 2, [6, 3]) := by
  decide +kernel

/-- The same system where every node can be opened. -/
def clientOpens : Prog.Env AReq ARep := fun h q => match q with
  | .sys (.os (.openDev _)) => { sys := { os := { fd := 3 + (openFds h).sum } } }
  | q => sampleClient h q

theorem sampleOpens_fresh : FreshFds clientOpens := by
  intro h path _ hmem
  have := mem_le_sum (show 3 + (openFds h).sum ∈ openFds h from hmem)
  omega

instance (c : LinuxCall) (r : Out (List Opened)) : Decidable (Finished c r) := by
  cases c <;> cases r <;> (unfold Finished; infer_instance)

/-- A drive is held, and two partitions of another one are mounted: listing the volumes costs two descriptors. -/
def clientMounts : List LinuxCall :=
  [.openPath (ascii "/dev/sda"),
    .enumVolumes (mountsOf (ascii "/dev/nvme0n1p1 / ext4 rw\nproc /proc proc rw\n/dev/nvme0n1p2 /home ext4 rw\n") none)]

example :
    let r := clientRun id sampleCtx clientOpens clientMounts [] []
    (∀ x ∈ clientMounts.zip r.reports, Finished x.1 x.2) ∧
    (driven r.held, driverless (r.reports.flatMap reported),
      (clientMounts.zip (clientSteps id sampleCtx clientOpens clientMounts [] [])).map (fun x => volumeOpens x.1 x.2),
      (openFds r.trace).length) = (1, 0, [0, 2], 3) := by
  decide +kernel

end Dparm
