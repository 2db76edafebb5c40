import Verif.Lemmas.Client
import Verif.Lemmas.WinHandles
import Verif.Lemmas.WinTcg
import Verif.Spec.WinClient
/-!
# Handles along the runs of a client on Windows
-/
namespace Dparm
open Spec

/-- The protocol for what Windows lends: only what is held is used; Windows hands out something new. -/
def resW : Policy WReq WRep (List WinRes) where
  allowed s q := ∀ x, winUses q = some x → x ∈ s
  answers s q r := ∀ x, winGives q r = some x → x ∉ s
  next s q r := resNext s q r

/-- The same for the whole program. -/
def resA : Policy WAReq WARep (List WinRes) where
  allowed s q := ∀ q', q = .sys q' → resW.allowed s q'
  answers s q r := ∀ q', q = .sys q' → resW.answers s q' r.sys
  next s q r := resAfter s (q, r)

theorem openRes_after (t : Prog.Trace WAReq WARep) : openRes t = resA.after [] t := rfl

theorem handles_sound {env : Prog.Env WAReq WARep} (h : FreshHandles env) : resA.Sound [] env := by
  intro hist q q' hq x hx
  subst hq
  exact h hist q' x hx

theorem winCall_safe {B : List WinRes → Prop} (q : WReq) (s : List WinRes) (hB : B s) (h : resW.allowed s q) :
    OutT.Safe resA B (winCall q) s (fun r s' => resW.answers s q r ∧ s' = resW.next s q r) :=
  OutT.safe_ask_bind hB (fun q' hq => by cases hq; exact h) (fun r hr => OutT.safe_ret ⟨hr q rfl, rfl⟩)

theorem onWindows_safe {B : List WinRes → Prop} {α : Type} {p : WinM α} {s : List WinRes} {K : α → List WinRes → Prop}
    (h : OutT.Safe resW B p s K) : OutT.Safe resA B (OutT.interp winCall p) s K :=
  OutT.safe_interp winCall (fun q s hB ha => winCall_safe q s hB ha) h

/-- Nothing is listed twice. -/
theorem win_run_nodup {env : Prog.Env WAReq WARep} (hf : FreshHandles env) {α : Type} (p : WAM α) :
    ∀ h : Prog.Trace WAReq WARep, (openRes h).Nodup → (openRes (h ++ (OutT.run env h p).2)).Nodup := by
  have : ∀ (p : Prog WAReq WARep (Out α)) (h : Prog.Trace WAReq WARep), (openRes h).Nodup →
      (openRes (h ++ (Prog.run env h p).2)).Nodup := by
    intro p
    induction p with
    | done o => intro h hn; rw [Prog.run_done, List.append_nil]; exact hn
    | ask q k ih =>
      intro h hn
      rw [Prog.run_ask]
      have hstep : (openRes (h ++ [(q, env h q)])).Nodup := by
        rw [openRes_after, resA.after_append, ← openRes_after]
        show (resAfter (openRes h) (q, env h q)).Nodup
        unfold resAfter
        split
        · rename_i q' hq
          dsimp only at hq
          subst hq
          unfold resNext
          split
          · exact hn.filter _
          · split
            · rename_i x hx
              exact List.nodup_cons.2 ⟨hf h q' x hx, hn⟩
            · exact hn
        · exact hn
      have := ih (env h q) (h ++ [(q, env h q)]) hstep
      rw [List.append_assoc] at this
      exact this
  exact this p

/-! ## the drivers -/

/-- Work on this handle. -/
def worksOn (h : Nat) : WReq → Prop
  | .ioctl h' _ _ _ _ => h' = h
  | _ => False

theorem worksOn_keeps {h : Nat} {s : List WinRes} (hs : WinRes.file h ∈ s) (q : WReq) (hq : worksOn h q) :
    resW.allowed s q ∧ ∀ r, resW.next s q r = s := by
  cases q <;> simp only [worksOn] at hq
  subst hq
  refine ⟨fun x hx => ?_, fun r => ?_⟩
  · cases hx; exact hs
  · simp [resW, resNext, winEnds, winGives]

theorem winWork_safe {B : List WinRes → Prop} {α : Type} {h : Nat} {s : List WinRes} {p : WinM α} (hB : B s)
    (hs : WinRes.file h ∈ s) (hp : OutT.Asks (worksOn h) p) : OutT.Safe resW B p s (fun _ s' => s' = s) :=
  OutT.safe_mono (OutT.safe_of_asks hB hp (worksOn_keeps hs) (OutT.returns_any p)) (fun _ _ h => h.2)

theorem winPass_work (w : WinPass) (h : Nat) (rw : Bool) (data : Bytes) (addr base : Nat) :
    OutT.Asks (worksOn h) (w.run h rw data addr base) := by
  unfold WinPass.run
  dsimp only
  refine OutT.asks_bind (OutT.asks_lift _) (fun x => ?_)
  obtain ⟨a, c, ab⟩ := x
  dsimp only
  refine OutT.asks_bind (OutT.asks_ask (show worksOn _ _ from rfl)) (fun r => ?_)
  refine OutT.asks_bind (OutT.asks_lift _) (fun d => ?_)
  split
  · exact OutT.asks_ret _
  · refine OutT.asks_bind (OutT.asks_ask (show worksOn _ _ from rfl)) (fun r2 => ?_)
    split <;> exact OutT.asks_ret _

theorem winIdentify_work (h base : Nat) (task : Bytes → Nat → WinM (Option GoErr × Bytes))
    (ht : ∀ d a, OutT.Asks (worksOn h) (task d a)) : OutT.Asks (worksOn h) (winIdentify base task) := by
  unfold winIdentify
  dsimp only
  refine OutT.asks_bind (ht _ _) (fun x => ?_)
  obtain ⟨e, d⟩ := x
  dsimp only
  split
  · exact OutT.asks_ret _
  · exact OutT.asks_bind (OutT.asks_lift _) (fun _ => OutT.asks_ret _)

theorem winAtaOpen_work (h base base' : Nat) : OutT.Asks (worksOn h) (winAtaOpen h base base') :=
  winIdentify_work h _ _ (fun _ _ => winPass_work ..)
theorem winScsiOpen_work (h base base' : Nat) : OutT.Asks (worksOn h) (winScsiOpen h base base') :=
  winIdentify_work h _ _ (fun _ _ => winPass_work ..)

theorem windowsNvmeOpen_work (h : Nat) : OutT.Asks (worksOn h) (windowsNvmeOpen h) := by
  unfold windowsNvmeOpen
  generalize storageQuery 4096 49 1 1 = p
  refine OutT.asks_bind (OutT.asks_ask (show worksOn _ _ from rfl)) (fun r => ?_)
  generalize (4096 : Nat) = n
  split
  · exact OutT.asks_ret _
  · exact asks_ite (OutT.asks_ret _) (OutT.asks_ret _)

theorem winReadIoctl_work (h code : Nat) (inb : Bytes) : OutT.Asks (worksOn h) (winReadIoctl h code inb) := by
  unfold winReadIoctl
  refine OutT.asks_bind (OutT.asks_ask (show worksOn _ _ from rfl)) (fun r => ?_)
  split
  · split
    · exact OutT.asks_panic
    · exact OutT.asks_ret _
  · split
    · split
      · exact OutT.asks_panic
      · refine OutT.asks_bind (OutT.asks_ask (show worksOn _ _ from rfl)) (fun r2 => ?_)
        split
        · exact OutT.asks_ret _
        · split
          · exact OutT.asks_panic
          · exact OutT.asks_ret _
    · exact OutT.asks_ret _

theorem winBasicInfo_work (h : Nat) : OutT.Asks (worksOn h) (winBasicInfo h) := by
  unfold winBasicInfo
  refine OutT.asks_bind (OutT.asks_ask (show worksOn _ _ from rfl)) (fun n => ?_)
  refine OutT.asks_bind (OutT.asks_ask (show worksOn _ _ from rfl)) (fun g => ?_)
  refine OutT.asks_bind (winReadIoctl_work ..) (fun x => ?_)
  split
  · exact OutT.asks_panic
  · exact OutT.asks_ret _
  · exact OutT.asks_lift _

theorem winStorageQuery_work (h : Nat) (beyond : Nat → Byte) : OutT.Asks (worksOn h) (winStorageQuery h beyond) := by
  unfold winStorageQuery
  refine OutT.asks_bind (winReadIoctl_work ..) (fun x => ?_)
  split
  · exact OutT.asks_panic
  · exact OutT.asks_ret _
  · exact OutT.asks_bind (OutT.asks_lift _) (fun _ => OutT.asks_ret _)

theorem miniportAdmin_work (h : Nat) (c : NvmeCmd) (mem : Nat → Byte) : OutT.Asks (worksOn h) (miniportAdmin h c mem) := by
  unfold miniportAdmin
  dsimp only
  split
  · exact OutT.asks_ret _
  · refine OutT.asks_bind (OutT.asks_ask (show worksOn _ _ from rfl)) (fun r => ?_)
    split <;> exact OutT.asks_ret _


theorem windowsLogPage_work (h : Nat) (nsid logId : BitVec 32) (rae : Bool) (size : Int) :
    OutT.Asks (worksOn h) (windowsLogPage h nsid logId rae size) := by
  unfold windowsLogPage
  split
  · exact OutT.asks_panic
  · generalize storageQuery size.toNat 50 2 logId.toNat = p
    dsimp only
    generalize p.length % 2 ^ 32 = n
    refine OutT.asks_bind (OutT.asks_ask (show worksOn _ _ from rfl)) (fun r => ?_)
    split
    · exact OutT.asks_ret _
    · exact asks_ite (OutT.asks_ret _) (OutT.asks_ret _)

/-- Work on a handle of the driver. -/
def worksFor (k : WinDrv) (q : WReq) : Prop := ∃ h, WinRes.file h ∈ k.owned ∧ worksOn h q

theorem for_own {k : WinDrv} {h : Nat} (hh : WinRes.file h ∈ k.owned) {α : Type} {p : WinM α} (hp : OutT.Asks (worksOn h) p) :
    OutT.Asks (worksFor k) p := OutT.asks_mono (fun _ hq => ⟨h, hh, hq⟩) hp

theorem winDrv_work (k : WinDrv) (addr base : Nat) (behind : Nat → Byte) (q : DrvReq) (hq : q ≠ .close) :
    OutT.Asks (worksFor k) (winDrv k addr base behind q) := by
  cases q with
  | close => exact absurd rfl hq
  | drivingType => exact OutT.asks_ret _
  | driverName => exact OutT.asks_ret _
  | sec rw dma p c data to =>
    cases k
    · exact OutT.asks_ret _
    · exact OutT.asks_bind (for_own (by simp [WinDrv.owned]) (winPass_work ..)) (fun _ => OutT.asks_ret _)
    · exact OutT.asks_bind (for_own (by simp [WinDrv.owned]) (winPass_work ..)) (fun _ => OutT.asks_ret _)
    · exact OutT.asks_ret _
  | taskFile rw dma tf data to =>
    cases k
    · exact OutT.asks_panic
    · exact OutT.asks_panic
    · exact OutT.asks_bind (for_own (by simp [WinDrv.owned]) (winPass_work ..)) (fun _ => OutT.asks_ret _)
    · exact OutT.asks_bind (for_own (by simp [WinDrv.owned]) (winPass_work ..)) (fun _ => OutT.asks_ret _)
  | taskNil rw dma tf to =>
    cases k
    · exact OutT.asks_panic
    · exact OutT.asks_panic
    · exact OutT.asks_bind (for_own (by simp [WinDrv.owned]) (winPass_work ..)) (fun _ => OutT.asks_ret _)
    · exact OutT.asks_bind (for_own (by simp [WinDrv.owned]) (winPass_work ..)) (fun _ => OutT.asks_ret _)
  | nvmeAdmin c =>
    cases k
    · exact OutT.asks_bind (for_own (by simp [WinDrv.owned]) (miniportAdmin_work ..)) (fun _ => OutT.asks_ret _)
    · exact OutT.asks_ret _
    · exact OutT.asks_panic
    · exact OutT.asks_panic
  | logPage nsid id rae size =>
    cases k
    · exact OutT.asks_ret _
    · refine OutT.asks_bind (for_own (by simp [WinDrv.owned]) (windowsLogPage_work ..)) (fun x => ?_)
      split
      · exact OutT.asks_panic
      · exact OutT.asks_ret _
      · exact OutT.asks_ret _
    · exact OutT.asks_panic
    · exact OutT.asks_panic

theorem worksFor_keeps {k : WinDrv} {s : List WinRes} (hs : ∀ x ∈ k.owned, x ∈ s) (q : WReq) (hq : worksFor k q) :
    resW.allowed s q ∧ ∀ r, resW.next s q r = s := by
  obtain ⟨h, h1, h2⟩ := hq
  exact worksOn_keeps (hs _ h1) q h2

theorem winDrv_safe {B : List WinRes → Prop} {α : Type} (k : WinDrv) (addr base : Nat) (behind : Nat → Byte) {s : List WinRes}
    {p : DrvM α} (hB : B s) (hs : ∀ x ∈ k.owned, x ∈ s) (hp : OutT.Asks (· ≠ DrvReq.close) p) {C : α → Prop}
    (hr : OutT.Returns C p) :
    OutT.Safe resW B (OutT.interp (winDrv k addr base behind) p) s (fun a s' => C a ∧ s' = s) :=
  OutT.safe_of_asks hB (OutT.asks_interp _ _ hp (fun q hq => winDrv_work k _ _ _ q hq)) (worksFor_keeps hs)
    (OutT.returns_interp _ _ hr)

/-! ## opening -/

/-- All of `s` is still held. -/
abbrev StillHeld (s : List WinRes) (s' : List WinRes) : Prop := ∀ x ∈ s, x ∈ s'

theorem filter_cons_fresh {s : List WinRes} {x : WinRes} (h : x ∉ s) : (x :: s).filter (· ≠ x) = s := by
  rw [List.filter_cons_of_neg (by simp), List.filter_eq_self]
  intro y hy
  have : y ≠ x := fun e => h (e ▸ hy)
  simpa using this

theorem winOpenDevice_safe {B : List WinRes → Prop} (path : Bytes) (s : List WinRes) (hB : B s) :
    OutT.Safe resW B (winOpenDevice path) s (fun r s' => match r with
      | .ok h => WinRes.file h ∉ s ∧ s' = .file h :: s
      | _ => s' = s) := by
  unfold winOpenDevice
  split
  · exact OutT.safe_ret rfl
  · refine OutT.safe_ask_bind hB (fun _ h => by cases h) (fun r hr => ?_)
    show OutT.Safe resW B _ (resNext s (.openDevice path) r) _
    cases he : r.err with
    | some e =>
      dsimp only
      rw [show resNext s (.openDevice path) r = s by simp [resNext, winEnds, winGives, he]]
      exact OutT.safe_ret rfl
    | none =>
      dsimp only
      rw [show resNext s (.openDevice path) r = .file r.handle :: s by simp [resNext, winEnds, winGives, he]]
      exact OutT.safe_ret ⟨hr _ (by simp [winGives, he]), rfl⟩

/-- Closing what is held. -/
theorem closeHandle_safe {B : List WinRes → Prop} {α : Type} {h : Nat} {s : List WinRes} (hB : B s) (hs : WinRes.file h ∈ s)
    {f : WRep → WinM α} {K : α → List WinRes → Prop}
    (hf : ∀ r, OutT.Safe resW B (f r) (s.filter (· ≠ WinRes.file h)) K) :
    OutT.Safe resW B (OutT.ask (.closeHandle h) >>= f) s K :=
  OutT.safe_ask_bind hB (fun x hx => by cases hx; exact hs) (fun r _ => hf r)

/-- What a driver that is tried on the handle `h` leaves. -/
def Tried {α : Type} (h : Nat) (s : List WinRes) (own : α → List WinRes) (r : Res α) (s' : List WinRes) : Prop :=
  match r with
  | .ok a => ∃ extra, s' = extra ++ s ∧ own a = extra ++ [.file h] ∧ extra.Nodup ∧ ∀ x ∈ extra, x ∉ s
  | _ => s' = s

theorem tried_none {α : Type} {h : Nat} {s : List WinRes} {own : α → List WinRes} (r : Res α)
    (ho : ∀ a, own a = [.file h]) : Tried h s own r s := by
  cases r with
  | ok a => exact ⟨[], rfl, ho a, List.nodup_nil, fun _ h => by cases h⟩
  | err e => rfl
  | panic => rfl

theorem winScsiPath_work (h : Nat) : OutT.Asks (worksOn h) (winScsiPath h) := by
  unfold winScsiPath
  refine OutT.asks_bind (OutT.asks_ask (show worksOn _ _ from rfl)) (fun r => ?_)
  split <;> exact OutT.asks_ret _

theorem winMiniportIdentity_work (h : Nat) : OutT.Asks (worksOn h) (winMiniportIdentity h) := by
  unfold winMiniportIdentity
  generalize copyAt (copyAt miniportHeader 52 [6#8]) 92 (leBytes 4 1) = p
  refine OutT.asks_bind (OutT.asks_ask (show worksOn _ _ from rfl)) (fun r => ?_)
  split <;> exact OutT.asks_ret _

theorem nvmeWinOpen_safe {s₀ : List WinRes} (h : Nat) (s : List WinRes) (hB : StillHeld s₀ s) (hs : WinRes.file h ∈ s) :
    OutT.Safe resW (StillHeld s₀) (nvmeWinOpen h) s
      (Tried h s (fun a : Nat × Bytes => (WinDrv.nvmeWin h a.1).owned)) := by
  unfold nvmeWinOpen
  refine OutT.safe_bind' (winWork_safe hB hs (winScsiPath_work h)) ?_
  rintro x s' rfl
  cases x with
  | panic => exact OutT.safe_panic hB
  | err e => exact OutT.safe_ret rfl
  | ok path =>
    dsimp only
    refine OutT.safe_bind' (winOpenDevice_safe path s' hB) ?_
    intro y s1 h1
    cases y with
    | panic => rw [show s1 = s' from h1]; exact OutT.safe_panic hB
    | err e => rw [show s1 = s' from h1]; exact OutT.safe_ret rfl
    | ok sh =>
      obtain ⟨hn, rfl⟩ := h1
      have hB1 : StillHeld s₀ (.file sh :: s') := fun x hx => List.mem_cons_of_mem _ (hB x hx)
      dsimp only
      refine OutT.safe_bind' (winWork_safe hB1 (List.mem_cons_self ..) (winMiniportIdentity_work sh)) ?_
      rintro z s2 rfl
      cases z with
      | panic => exact OutT.safe_panic hB1
      | err e =>
        dsimp only
        refine closeHandle_safe hB1 (List.mem_cons_self ..) (fun r => ?_)
        rw [filter_cons_fresh hn]
        exact OutT.safe_ret rfl
      | ok id =>
        dsimp only
        by_cases hl : id.length ≠ 4096
        · rw [if_pos hl]
          refine closeHandle_safe hB1 (List.mem_cons_self ..) (fun r => ?_)
          rw [filter_cons_fresh hn]
          exact OutT.safe_ret rfl
        · rw [if_neg hl]
          refine OutT.safe_ret ⟨[.file sh], rfl, rfl, by simp, fun x hx => ?_⟩
          rw [List.mem_singleton.1 hx]
          exact hn

theorem asOpener_safe {B : List WinRes → Prop} {α : Type} (open' : Nat → WinM (Res α)) (wrap : Nat → α → WinDrv × Driver)
    (h : Nat) (s : List WinRes) (hB : B s)
    (ho : OutT.Safe resW B (open' h) s (Tried h s (fun a => (wrap h a).1.owned))) :
    OutT.Safe resW B (asOpener open' wrap h) s (Tried h s (fun x => x.1.owned)) := by
  unfold asOpener
  refine OutT.safe_bind' ho (fun r s' hr => ?_)
  cases r with
  | panic => rw [show s' = s from hr]; exact OutT.safe_panic hB
  | err e => rw [show s' = s from hr]; exact OutT.safe_ret rfl
  | ok a => exact OutT.safe_ret hr

theorem winFirst_safe {s₀ : List WinRes} (h : Nat) (s : List WinRes) (hB : StillHeld s₀ s) (ds : List WinOpener)
    (hd : ∀ d ∈ ds, OutT.Safe resW (StillHeld s₀) (d h) s (Tried h s (fun x => x.1.owned))) :
    OutT.Safe resW (StillHeld s₀) (winFirst ds h) s (fun r s' => match r with
      | some x => Tried h s (fun x : WinDrv × Driver => x.1.owned) (.ok x) s'
      | none => s' = s) := by
  induction ds with
  | nil => exact OutT.safe_ret rfl
  | cons d ds ih =>
    unfold winFirst
    refine OutT.safe_bind' (hd d (List.mem_cons_self ..)) (fun r s' hr => ?_)
    cases r with
    | panic => rw [show s' = s from hr]; exact OutT.safe_panic hB
    | err e => rw [show s' = s from hr]; exact ih (fun d h => hd d (List.mem_cons_of_mem _ h))
    | ok a => exact OutT.safe_ret hr

theorem winOpeners_safe {s₀ : List WinRes} (b b' h : Nat) (s : List WinRes) (hB : StillHeld s₀ s) (hs : WinRes.file h ∈ s) :
    ∀ d ∈ winOpeners b b', OutT.Safe resW (StillHeld s₀) (d h) s (Tried h s (fun x => x.1.owned)) := by
  have quiet : ∀ {α : Type} (open' : Nat → WinM (Res α)) (wrap : Nat → α → WinDrv × Driver),
      OutT.Asks (worksOn h) (open' h) → (∀ a, (wrap h a).1.owned = [.file h]) →
      OutT.Safe resW (StillHeld s₀) (asOpener open' wrap h) s (Tried h s (fun x => x.1.owned)) := by
    intro α open' wrap ha hw
    refine asOpener_safe open' wrap h s hB (OutT.safe_mono (winWork_safe hB hs ha) ?_)
    rintro r s' rfl
    exact tried_none r hw
  intro d hd
  simp only [winOpeners, List.mem_cons, List.not_mem_nil, or_false] at hd
  rcases hd with rfl | rfl | rfl | rfl
  · exact asOpener_safe _ _ h s hB (nvmeWinOpen_safe h s hB hs)
  · exact quiet _ _ (windowsNvmeOpen_work h) (fun _ => rfl)
  · exact quiet _ _ (winScsiOpen_work h b b') (fun _ => rfl)
  · exact quiet _ _ (winAtaOpen_work h b b') (fun _ => rfl)

/-- The handles an opened drive has: those of its driver, or the one nobody will close. -/
def Opens (o : WinOpened) (new : List WinRes) : Prop :=
  match o.drv with
  | some k => o.handle.dh ≠ none ∧ new = k.owned
  | none => o.handle.dh = none ∧ ∃ h, new = [.file h]

/-- What opening a drive leaves: nothing after an error, otherwise the new handles of the drive. -/
def WinOpening (s : List WinRes) (r : Res WinOpened) (s' : List WinRes) : Prop :=
  match r with
  | .ok o => ∃ new, s' = new ++ s ∧ new.Nodup ∧ (∀ x ∈ new, x ∉ s) ∧ Opens o new
  | _ => s' = s

theorem winDescribe_same (d : StorageDesc) (o : WinOpened) : (winDescribe d o).drv = o.drv ∧
    (winDescribe d o).handle.dh = o.handle.dh := ⟨rfl, rfl⟩

theorem winOpenByHandle_safe {s₀ : List WinRes} (w : WinRun) (b b' h : Nat) (path : Bytes) (s : List WinRes)
    (hB : StillHeld s₀ s) (hs : WinRes.file h ∈ s) :
    OutT.Safe resW (StillHeld s₀) (winOpenByHandle w (winOpeners b b') h path) s (fun o s' =>
      ∃ extra, s' = extra ++ s ∧ extra.Nodup ∧ (∀ x ∈ extra, x ∉ s) ∧ Opens o (extra ++ [.file h])) := by
  unfold winOpenByHandle
  refine OutT.safe_bind' (winWork_safe hB hs (winBasicInfo_work h)) ?_
  rintro bi s' rfl
  dsimp only
  refine OutT.safe_bind' (winFirst_safe h s' hB _ (winOpeners_safe b b' h s' hB hs)) ?_
  intro r s1 hr
  cases r with
  | none =>
    obtain rfl : s1 = s' := hr
    dsimp only
    refine OutT.safe_bind' (winWork_safe hB hs (winStorageQuery_work h _)) ?_
    rintro q s2 rfl
    have hopen : ∀ o : WinOpened, o.drv = none → o.handle.dh = none →
        ∃ extra, s2 = extra ++ s2 ∧ extra.Nodup ∧ (∀ x ∈ extra, x ∉ s2) ∧ Opens o (extra ++ [.file h]) := by
      intro o h1 h2
      refine ⟨[], rfl, List.nodup_nil, (fun _ h => by cases h), ?_⟩
      unfold Opens
      rw [h1]
      exact ⟨h2, h, rfl⟩
    cases q with
    | panic => exact OutT.safe_panic hB
    | err e => exact OutT.safe_ret (hopen _ rfl rfl)
    | ok d => exact OutT.safe_ret (hopen _ rfl rfl)
  | some x =>
    obtain ⟨k, d⟩ := x
    obtain ⟨extra, rfl, ho, hn, hf⟩ := hr
    have hB1 : StillHeld s₀ (extra ++ s') := fun x hx => List.mem_append_right _ (hB x hx)
    have hown : ∀ x ∈ k.owned, x ∈ extra ++ s' := by
      intro x hx
      dsimp only at ho
      rw [ho] at hx
      rcases List.mem_append.1 hx with h | h
      · exact List.mem_append_left _ h
      · rw [List.mem_singleton.1 h]; exact List.mem_append_right _ hs
    dsimp only
    refine OutT.safe_bind' (winDrv_safe k _ _ _ hB1 hown (getDrivingType_asks _) (OutT.returns_any _)) ?_
    rintro t s2 ⟨_, rfl⟩
    refine OutT.safe_bind' (winDrv_safe k _ _ _ hB1 hown (getDriverName_asks _) (OutT.returns_any _)) ?_
    rintro nm s2 ⟨_, rfl⟩
    refine OutT.safe_bind' (winDrv_safe k _ _ _ hB1 hown (OutT.asks_mono security_not_close (init_asks _))
      (init_returns_dh _)) ?_
    rintro ⟨hd, e⟩ s2 ⟨hdh, rfl⟩
    refine OutT.safe_ret ⟨extra, rfl, hn, hf, ?_⟩
    unfold Opens
    dsimp only at hdh ho ⊢
    exact ⟨by rw [hdh]; simp, ho.symm⟩

theorem winOpenPath_safe (w : WinRun) (path : Bytes) {s₀ : List WinRes} (s : List WinRes) (hB : StillHeld s₀ s) :
    OutT.Safe resW (StillHeld s₀) (winOpenPath w path) s (WinOpening s) := by
  unfold winOpenPath winOpenByPath
  refine OutT.safe_bind' (winOpenDevice_safe path s hB) ?_
  intro r s1 h1
  cases r with
  | panic => rw [show s1 = s from h1]; exact OutT.safe_panic hB
  | err e => rw [show s1 = s from h1]; exact OutT.safe_ret rfl
  | ok h =>
    obtain ⟨hn, rfl⟩ := h1
    dsimp only
    refine OutT.safe_bind' (winOpenByHandle_safe w _ _ h path (.file h :: s) (fun x hx => List.mem_cons_of_mem _ (hB x hx))
      (List.mem_cons_self ..)) ?_
    rintro o s2 ⟨extra, rfl, h1, h2, h3⟩
    refine OutT.safe_ret ⟨extra ++ [.file h], by simp, ?_, ?_, h3⟩
    · rw [List.nodup_append]
      refine ⟨h1, by simp, ?_⟩
      intro a ha b hb e
      rw [List.mem_singleton.1 hb] at e
      exact h2 a ha (e ▸ List.mem_cons_self ..)
    · intro x hx
      rcases List.mem_append.1 hx with h | h
      · exact fun hx => h2 x h (List.mem_cons_of_mem _ hx)
      · rw [List.mem_singleton.1 h]; exact hn

/-! ## closing and enumerating -/

theorem owned_handle (k : WinDrv) : WinRes.file k.handle ∈ k.owned := by cases k <;> simp [WinDrv.owned, WinDrv.handle]

/-- Closing a handle: the handle its driver was given goes, if it has a driver. -/
theorem winClose_safe {B : List WinRes → Prop} (w : WinRun) (o : WinOpened) (s : List WinRes) (hB : B s)
    (ho : o.handle.dh ≠ none → ∃ k, o.drv = some k ∧ ∀ x ∈ k.owned, x ∈ s) :
    OutT.Safe resW B (o.close w) s (fun o' s' => o'.handle.dh = none ∧ o'.drv = o.drv ∧
      ((o.handle.dh = none ∧ s' = s) ∨
        (o.handle.dh ≠ none ∧ ∃ k, o.drv = some k ∧ s' = s.filter (· ≠ WinRes.file k.handle)))) := by
  cases hd : o.handle.dh with
  | none =>
    unfold WinOpened.close Handle.close
    rw [hd]
    cases hk : o.drv with
    | none => exact OutT.safe_ret ⟨hd, hk, .inl ⟨rfl, rfl⟩⟩
    | some k => exact OutT.safe_ret ⟨hd, rfl, .inl ⟨rfl, rfl⟩⟩
  | some d =>
    obtain ⟨k, h1, h2⟩ := ho (by rw [hd]; simp)
    unfold WinOpened.close Handle.close
    rw [hd, h1]
    refine OutT.safe_bind' (C := fun h' s' => h'.dh = none ∧ s' = s.filter (· ≠ WinRes.file k.handle)) ?_ ?_
    · exact OutT.safe_ask_bind hB (fun f hf => by cases hf; exact h2 _ (owned_handle k)) (fun r _ => OutT.safe_ret ⟨rfl, rfl⟩)
    · rintro h' s' ⟨h3, rfl⟩
      exact OutT.safe_ret ⟨h3, rfl, .inr ⟨by simp, k, rfl, rfl⟩⟩

theorem filter_res_length {l : List WinRes} {a : WinRes} (hn : l.Nodup) (ha : a ∈ l) :
    (l.filter (· ≠ a)).length + 1 = l.length := by
  have h1 := List.length_erase_of_mem ha
  rw [hn.erase_eq_filter] at h1
  have h2 : (l.filter (· ≠ a)) = l.filter (· != a) := by
    congr 1
    funext x
    rw [Bool.eq_iff_iff]
    simp
  have := List.length_pos_of_mem ha
  rw [h2, h1]
  omega

/-- What an enumeration that reports `os` leaves. -/
structure EnumeratedRes (s : List WinRes) (os : List WinOpened) (s' : List WinRes) : Prop where
  still : StillHeld s s'
  rest : (∀ o ∈ os, o.handle.dh ≠ none ∧ miniport o = false) → ∀ x ∈ s', x ∈ s
  files : ∀ x ∈ s', x ∈ s ∨ ∃ h, x = .file h
  nodup : s.Nodup → s'.Nodup
  count : s.Nodup → s'.length = s.length + winDriverless os + winMiniports os

theorem EnumeratedRes.refl (s : List WinRes) : EnumeratedRes s [] s :=
  ⟨fun _ h => h, fun _ _ h => h, fun _ h => .inl h, fun h => h, fun _ => rfl⟩

/-- Inquiries about this device list. -/
def asksList (set : Nat) : WReq → Prop
  | .setupDevice s _ => s = set
  | .setupInterface s _ => s = set
  | .setupDetail s _ _ => s = set
  | _ => False

theorem asksList_keeps {set : Nat} {s : List WinRes} (hs : WinRes.devices set ∈ s) (q : WReq) (hq : asksList set q) :
    resW.allowed s q ∧ ∀ r, resW.next s q r = s := by
  cases q <;> simp only [asksList] at hq <;> subst hq
  all_goals
    refine ⟨fun x hx => ?_, fun r => ?_⟩
    · cases hx; exact hs
    · simp [resW, resNext, winEnds, winGives]

theorem winDetail_list (conv : List (BitVec 16) → Bytes) (set i : Nat) (buf : Bytes) :
    OutT.Asks (asksList set) (winDetail conv set i buf) := by
  unfold winDetail
  dsimp only
  refine OutT.asks_bind (OutT.asks_ask (show asksList _ _ from rfl)) (fun r => ?_)
  refine asks_ite (asks_ite OutT.asks_panic ?_) (OutT.asks_ret _)
  exact OutT.asks_bind (OutT.asks_ask (q := WReq.setupDetail set i _) (show set = set from rfl)) (fun r2 => OutT.asks_ret _)

theorem list_safe {s₀ : List WinRes} {α : Type} {set : Nat} {s : List WinRes} {p : WinM α} (hB : StillHeld s₀ s)
    (hs : WinRes.devices set ∈ s) (hp : OutT.Asks (asksList set) p) :
    OutT.Safe resW (StillHeld s₀) p s (fun _ s' => s' = s) :=
  OutT.safe_mono (OutT.safe_of_asks hB hp (asksList_keeps hs) (OutT.returns_any p)) (fun _ _ h => h.2)

theorem ask_list_safe {s₀ : List WinRes} {α : Type} {set : Nat} {s : List WinRes} {q : WReq} {f : WRep → WinM α}
    {K : α → List WinRes → Prop} (hB : StillHeld s₀ s) (hs : WinRes.devices set ∈ s) (hq : asksList set q)
    (hf : ∀ r, OutT.Safe resW (StillHeld s₀) (f r) s K) : OutT.Safe resW (StillHeld s₀) (OutT.ask q >>= f) s K :=
  OutT.safe_ask_bind hB (asksList_keeps hs q hq).1 (fun r _ => by rw [(asksList_keeps hs q hq).2 r]; exact hf r)

theorem owned_length (o : WinOpened) (k : WinDrv) (h : o.drv = some k) :
    k.owned.length = 1 + (if miniport o then 1 else 0) := by
  unfold miniport
  rw [h]
  cases k <;> rfl

theorem owned_files (k : WinDrv) : ∀ x ∈ k.owned, ∃ h, x = .file h := by
  intro x hx
  cases k <;> simp [WinDrv.owned] at hx
  · rcases hx with rfl | rfl <;> exact ⟨_, rfl⟩
  all_goals exact ⟨_, hx⟩

theorem opens_files {o : WinOpened} {new : List WinRes} (h : Opens o new) : ∀ x ∈ new, ∃ h, x = .file h := by
  unfold Opens at h
  split at h
  · rename_i k hk
    rw [h.2]
    exact owned_files k
  · obtain ⟨_, h, rfl⟩ := h
    intro x hx
    exact ⟨h, List.mem_singleton.1 hx⟩

/-- One more drive, closed after the rest. -/
theorem EnumeratedRes.more {s new s' s'' : List WinRes} {os : List WinOpened} {o : WinOpened} (hn : new.Nodup)
    (hf : ∀ x ∈ new, x ∉ s) (ho : Opens o new) (hE : EnumeratedRes (new ++ s) os s')
    (hc : (o.handle.dh = none ∧ s'' = s') ∨
      (o.handle.dh ≠ none ∧ ∃ k, o.drv = some k ∧ s'' = s'.filter (· ≠ WinRes.file k.handle))) :
    EnumeratedRes s (o :: os) s'' := by
  have hnd : s.Nodup → (new ++ s).Nodup := by
    intro h
    rw [List.nodup_append]
    exact ⟨hn, h, fun a ha b hb e => hf a ha (e ▸ hb)⟩
  have hfiles : ∀ x ∈ s', x ∈ s ∨ ∃ h, x = .file h := by
    intro x hx
    rcases hE.files x hx with h | h
    · rcases List.mem_append.1 h with h | h
      · exact .inr (opens_files ho x h)
      · exact .inl h
    · exact .inr h
  rcases hc with ⟨hd, rfl⟩ | ⟨hd, k, hk, rfl⟩
  · have ho' : ∃ h, new = [.file h] := by
      unfold Opens at ho
      split at ho
      · exact absurd hd ho.1
      · exact ho.2
    have hm : miniport o = false := by
      unfold miniport Opens at *
      cases hk : o.drv with
      | none => rfl
      | some k => rw [hk] at ho; exact absurd hd ho.1
    obtain ⟨h, rfl⟩ := ho'
    refine ⟨fun x hx => hE.still x (List.mem_append_right _ hx), fun hall => ?_, hfiles, fun h => hE.nodup (hnd h), fun h => ?_⟩
    · exact absurd hd (hall o (List.mem_cons_self ..)).1
    · have := hE.count (hnd h)
      unfold winDriverless winMiniports at this ⊢
      rw [List.countP_cons, List.countP_cons, if_pos (by rw [hd]; rfl), hm]
      simp only [List.length_append, List.length_singleton, Bool.false_eq_true, if_false] at this ⊢
      omega
  · have ho' : new = k.owned := by
      unfold Opens at ho
      rw [hk] at ho
      exact ho.2
    subst ho'
    have hin : WinRes.file k.handle ∈ s' := hE.still _ (List.mem_append_left _ (owned_handle k))
    refine ⟨fun x hx => ?_, fun hall x hx => ?_, fun x hx => hfiles x (List.mem_filter.1 hx).1,
      fun h => (hE.nodup (hnd h)).filter _, fun h => ?_⟩
    · rw [List.mem_filter]
      refine ⟨hE.still x (List.mem_append_right _ hx), ?_⟩
      have : x ≠ .file k.handle := fun e => hf _ (owned_handle k) (e ▸ hx)
      simpa using this
    · rw [List.mem_filter] at hx
      have hx' := hE.rest (fun o' ho' => hall o' (List.mem_cons_of_mem _ ho')) x hx.1
      rcases List.mem_append.1 hx' with h | h
      · have hl := owned_length o k hk
        rw [(hall o (List.mem_cons_self ..)).2] at hl
        have hone : k.owned = [.file k.handle] := by
          cases k <;> first | rfl | simp [WinDrv.owned] at hl
        rw [hone, List.mem_singleton] at h
        simp [h] at hx
      · exact h
    · have h1 := hE.count (hnd h)
      have h2 := filter_res_length (hE.nodup (hnd h)) hin
      have h3 := owned_length o k hk
      unfold winDriverless winMiniports at h1 ⊢
      rw [List.countP_cons, List.countP_cons, if_neg (by simpa using hd)]
      rw [List.length_append] at h1
      omega

theorem winEnumLoop_safe (w : WinRun) (b b' : Nat) (hb : b = w.base ∧ b' = w.base') (conv : List (BitVec 16) → Bytes)
    (set : Nat) (fuel : Nat) : ∀ (i : Nat) (buf : Bytes) (s : List WinRes), WinRes.devices set ∈ s →
    OutT.Safe resW (StillHeld s) (winEnumLoop w (winOpeners b b') conv set fuel i buf) s (EnumeratedRes s) := by
  obtain ⟨rfl, rfl⟩ := hb
  induction fuel with
  | zero => intro i buf s _ x h; exact h
  | succ fuel ih =>
    intro i buf s hs
    have hB : StillHeld s s := fun _ h => h
    unfold winEnumLoop
    refine ask_list_safe (q := .setupDevice set i) hB hs rfl (fun d => ?_)
    cases hd : d.err with
    | some e => exact OutT.safe_ret (.refl s)
    | none =>
      dsimp only
      refine ask_list_safe (q := .setupInterface set i) hB hs rfl (fun f => ?_)
      cases hf : f.err with
      | some e =>
        dsimp only
        split
        · exact ih _ _ s hs
        · exact OutT.safe_ret (.refl s)
      | none =>
        dsimp only
        refine OutT.safe_bind' (list_safe hB hs (winDetail_list conv set i buf)) ?_
        rintro ⟨buf', path⟩ s' rfl
        cases path with
        | none => exact ih _ _ s' hs
        | some path =>
          dsimp only
          refine OutT.safe_bind' (winOpenPath_safe w path s' hB) ?_
          intro r s1 h1
          cases r with
          | panic => rw [show s1 = s' from h1]; exact OutT.safe_panic hB
          | err e => rw [show s1 = s' from h1]; exact ih _ _ s' hs
          | ok o =>
            obtain ⟨new, rfl, hn, hfr, ho⟩ := h1
            dsimp only
            have hclose : ∀ s2, StillHeld (new ++ s') s2 → OutT.Safe resW (StillHeld s') (o.deferredClose w) s2 (fun _ s3 =>
                StillHeld s' s3 ∧ ((o.handle.dh = none ∧ s3 = s2) ∨
                  (o.handle.dh ≠ none ∧ ∃ k, o.drv = some k ∧ s3 = s2.filter (· ≠ WinRes.file k.handle)))) := by
              intro s2 hs2
              have hs' : StillHeld s' s2 := fun x hx => hs2 x (List.mem_append_right _ hx)
              refine OutT.safe_bind' (winClose_safe w o s2 hs' (fun hd => ?_)) ?_
              · unfold Opens at ho
                cases hk : o.drv with
                | none => rw [hk] at ho; exact absurd ho.1 hd
                | some k =>
                  rw [hk] at ho
                  exact ⟨k, rfl, fun x hx => hs2 x (List.mem_append_left _ (ho.2 ▸ hx))⟩
              · rintro o' s3 ⟨_, _, h3⟩
                refine OutT.safe_ret ⟨?_, h3⟩
                rcases h3 with ⟨_, rfl⟩ | ⟨hd, k, hk, rfl⟩
                · exact hs'
                · intro x hx
                  rw [List.mem_filter]
                  refine ⟨hs' x hx, ?_⟩
                  have : x ≠ .file k.handle := by
                    intro e
                    unfold Opens at ho
                    rw [hk] at ho
                    exact hfr _ (ho.2 ▸ owned_handle k) (e ▸ hx)
                  simpa using this
            refine OutT.safe_bind' (C := fun os s2 => EnumeratedRes s' (o :: os) s2) ?_ (fun os s2 h => OutT.safe_ret h)
            refine OutT.safe_defer (ih (i + 1) buf' (new ++ s') (List.mem_append_right _ hs))
              (fun s2 h x hx => h x (List.mem_append_right _ hx))
              (fun s2 h => OutT.safe_mono (hclose s2 h) (fun _ _ h => h.1)) ?_
            intro os s2 hE
            exact OutT.safe_mono (hclose s2 hE.still) (fun _ s3 h => hE.more hn hfr ho h.2)

theorem winEnumDrives_safe (w : WinRun) (conv : List (BitVec 16) → Bytes) (fuel : Nat) (s : List WinRes) :
    OutT.Safe resW (StillHeld s) (winEnumDrives w (winOpeners w.base w.base') conv fuel) s (fun r s' =>
      match r with
      | .ok os => EnumeratedRes s os s'
      | _ => s' = s) := by
  unfold winEnumDrives
  refine OutT.safe_ask_bind (fun _ h => h) (fun _ h => by cases h) (fun r hr => ?_)
  show OutT.Safe resW _ _ (resNext s .setupClass r) _
  cases he : r.err with
  | some e =>
    rw [show resNext s .setupClass r = s by simp [resNext, winEnds, winGives, he]]
    exact OutT.safe_ret rfl
  | none =>
    rw [show resNext s .setupClass r = .devices r.handle :: s by simp [resNext, winEnds, winGives, he]]
    dsimp only
    have hn : WinRes.devices r.handle ∉ s := hr _ (by simp [winGives, he])
    have hd : ∀ s2, StillHeld (.devices r.handle :: s) s2 → OutT.Safe resW (StillHeld s) (winDestroy r.handle) s2
        (fun _ s3 => StillHeld s s3 ∧ s3 = s2.filter (· ≠ WinRes.devices r.handle)) := by
      intro s2 h2
      refine OutT.safe_ask_bind (fun x hx => h2 x (List.mem_cons_of_mem _ hx))
        (fun x hx => by cases hx; exact h2 _ (List.mem_cons_self ..)) (fun r' _ => OutT.safe_ret ⟨fun x hx => ?_, rfl⟩)
      show x ∈ s2.filter _
      rw [List.mem_filter]
      refine ⟨h2 x (List.mem_cons_of_mem _ hx), ?_⟩
      have : x ≠ .devices r.handle := fun e => hn (e ▸ hx)
      simpa using this
    refine OutT.safe_bind' (C := EnumeratedRes s) ?_ (fun os s' h => OutT.safe_ret h)
    refine OutT.safe_defer (winEnumLoop_safe w _ _ ⟨rfl, rfl⟩ conv r.handle fuel 0 _ _ (List.mem_cons_self ..))
      (fun s2 h x hx => h x (List.mem_cons_of_mem _ hx)) (fun s2 h => OutT.safe_mono (hd s2 h) (fun _ _ h => h.1)) ?_
    intro os s2 hE
    refine OutT.safe_mono (hd s2 hE.still) ?_
    rintro _ s3 ⟨h1, rfl⟩
    refine ⟨h1, fun hall x hx => ?_, fun x hx => ?_, fun h => (hE.nodup (List.nodup_cons.2 ⟨hn, h⟩)).filter _, fun h => ?_⟩
    · rw [List.mem_filter] at hx
      rcases List.mem_cons.1 (hE.rest hall x hx.1) with rfl | h
      · simp at hx
      · exact h
    · rw [List.mem_filter] at hx
      rcases hE.files x hx.1 with h | h
      · rcases List.mem_cons.1 h with rfl | h
        · simp at hx
        · exact .inl h
      · exact .inr h
    · have h2 := hE.count (List.nodup_cons.2 ⟨hn, h⟩)
      have h3 := filter_res_length (hE.nodup (List.nodup_cons.2 ⟨hn, h⟩)) (hE.still _ (List.mem_cons_self ..))
      rw [List.length_cons] at h2
      omega

/-! ## volumes -/

/-- Inquiries that need nothing. -/
def asksNothing : WReq → Prop
  | .volumePaths _ => True
  | .volumeInfo _ => True
  | .driveType _ => True
  | .setErrorMode _ => True
  | _ => False

theorem asksNothing_keeps {s : List WinRes} (q : WReq) (hq : asksNothing q) :
    resW.allowed s q ∧ ∀ r, resW.next s q r = s := by
  cases q <;> simp only [asksNothing] at hq
  all_goals
    refine ⟨fun x hx => ?_, fun r => ?_⟩
    · cases hx
    · simp [resW, resNext, winEnds, winGives]

theorem winMounts_nothing (conv : Wide → Bytes) (name : Wide) : OutT.Asks asksNothing (winMounts conv name) := by
  unfold winMounts
  generalize (4096 : Nat) = n
  refine OutT.asks_bind (OutT.asks_ask (q := WReq.volumePaths name) trivial) (fun r => ?_)
  exact asks_ite (OutT.asks_bind (OutT.asks_lift _) (fun _ => OutT.asks_ret _)) (OutT.asks_ret _)

theorem winFilesystem_nothing (conv : Wide → Bytes) (name buf : Wide) :
    OutT.Asks asksNothing (winFilesystem conv name buf) := by
  unfold winFilesystem
  exact OutT.asks_bind (OutT.asks_ask (q := WReq.volumeInfo name) trivial) (fun r => OutT.asks_ret _)

theorem nothing_safe {B : List WinRes → Prop} {α : Type} {s : List WinRes} {p : WinM α} (hB : B s)
    (hp : OutT.Asks asksNothing p) : OutT.Safe resW B p s (fun _ s' => s' = s) :=
  OutT.safe_mono (OutT.safe_of_asks hB hp asksNothing_keeps (OutT.returns_any p)) (fun _ _ h => h.2)

theorem winExtents_work (h : Nat) (buf : Bytes) (beyond : Nat → Byte) : OutT.Asks (worksOn h) (winExtents h buf beyond) := by
  unfold winExtents
  refine OutT.asks_bind (OutT.asks_ask (q := WReq.ioctl h 0x560000 [] buf.length none) (show h = h from rfl)) (fun r => ?_)
  dsimp only
  split
  · exact OutT.asks_ret _
  · refine OutT.asks_bind (OutT.asks_lift _) (fun es => ?_)
    split
    · exact OutT.asks_ret _
    · refine OutT.asks_bind ?_ (fun _ => OutT.asks_ret _)
      unfold winPartitionInfo
      refine OutT.asks_bind (OutT.asks_ask (q := WReq.ioctl h 0x70048 [] 144 none) (show h = h from rfl)) (fun r => ?_)
      generalize (144 : Nat) = n
      split
      · exact OutT.asks_ret _
      · exact asks_ite (OutT.asks_ret _) (asks_ite (OutT.asks_ret _) (OutT.asks_ret _))

theorem winVolumeHead_safe {B : List WinRes → Prop} (conv : Wide → Bytes) (name buf : Wide) (s : List WinRes) (hB : B s) :
    OutT.Safe resW B (winVolumeHead conv name buf) s (fun x s' =>
      (x.2.2.err = none → WinRes.file x.2.2.handle ∉ s ∧ s' = .file x.2.2.handle :: s) ∧ (x.2.2.err ≠ none → s' = s)) := by
  unfold winVolumeHead
  refine OutT.safe_bind' (nothing_safe hB (winMounts_nothing conv name)) ?_
  rintro m s' rfl
  refine OutT.safe_bind' (nothing_safe hB (winFilesystem_nothing conv name buf)) ?_
  rintro ⟨fs, buf'⟩ s1 rfl
  dsimp only
  refine OutT.safe_ask_bind hB (asksNothing_keeps (.driveType name) trivial).1 (fun d _ => ?_)
  rw [(asksNothing_keeps (.driveType name) trivial).2 d]
  refine OutT.safe_ask_bind hB (fun _ h => by cases h) (fun r hr => OutT.safe_ret ⟨fun he => ?_, fun he => ?_⟩)
  · dsimp only at he ⊢
    refine ⟨hr _ (by simp [winGives, he]), ?_⟩
    simp [resW, resNext, winEnds, winGives, he]
  · dsimp only at he ⊢
    simp [resW, resNext, winEnds, winGives, he]

theorem winNextVolume_safe (find : Nat) (loop : Wide → VolBufs → WinM (List WinVol)) (v : WinVol) (b : VolBufs)
    (s : List WinRes) (hs : WinRes.search find ∈ s)
    (hl : ∀ name b, OutT.Safe resW (StillHeld s) (loop name b) s (fun _ s' => s' = s)) :
    OutT.Safe resW (StillHeld s) (winNextVolume find loop v b) s (fun _ s' => s' = s) := by
  unfold winNextVolume
  refine OutT.safe_ask_bind (fun _ h => h) (fun x hx => by cases hx; exact hs) (fun r _ => ?_)
  rw [show resW.next s (.nextVolume find) r = s by simp [resW, resNext, winEnds, winGives]]
  cases hr : r.err with
  | some e => exact OutT.safe_ret rfl
  | none => exact OutT.safe_bind' (hl _ _) (fun _ s' h => OutT.safe_ret h)

theorem winVolumeLoop_safe (conv : Wide → Bytes) (beyond : Nat → Byte) (find fuel : Nat) : ∀ (name : Wide) (b : VolBufs)
    (s : List WinRes), WinRes.search find ∈ s →
    OutT.Safe resW (StillHeld s) (winVolumeLoop conv beyond find fuel name b) s (fun _ s' => s' = s) := by
  induction fuel with
  | zero => intro name b s _ x h; exact h
  | succ fuel ih =>
    intro name b s hs
    unfold winVolumeLoop
    refine OutT.safe_bind' (winVolumeHead_safe conv name b.fs s (fun _ h => h)) ?_
    rintro ⟨item, fsBuf, r⟩ s1 ⟨h1, h2⟩
    dsimp only at h1 h2 ⊢
    cases he : r.err with
    | some e =>
      rw [h2 (by simp [he])]
      exact winNextVolume_safe find _ _ _ s hs (fun name b => ih name b s hs)
    | none =>
      obtain ⟨hn, rfl⟩ := h1 he
      dsimp only
      have hc : ∀ s2, s2 = WinRes.file r.handle :: s → OutT.Safe resW (StillHeld s) (OutT.call (.closeHandle r.handle)) s2
          (fun _ s3 => s3 = s) := by
        rintro s2 rfl
        refine closeHandle_safe (fun x hx => List.mem_cons_of_mem _ hx) (List.mem_cons_self ..) (fun r' => OutT.safe_ret ?_)
        exact filter_cons_fresh hn
      have hc' : ∀ s2, StillHeld (.file r.handle :: s) s2 → OutT.Safe resW (StillHeld s) (OutT.call (.closeHandle r.handle)) s2
          (fun _ s3 => StillHeld s s3) := by
        intro s2 h2
        refine closeHandle_safe (fun x hx => h2 x (List.mem_cons_of_mem _ hx)) (h2 _ (List.mem_cons_self ..))
          (fun r' => OutT.safe_ret ?_)
        intro x hx
        rw [List.mem_filter]
        refine ⟨h2 x (List.mem_cons_of_mem _ hx), ?_⟩
        have : x ≠ .file r.handle := fun e => hn (e ▸ hx)
        simpa using this
      refine OutT.safe_defer (B := StillHeld (.file r.handle :: s)) (C := fun _ s2 => s2 = .file r.handle :: s) ?_
        (fun s2 h x hx => h x (List.mem_cons_of_mem _ hx)) hc' (fun a s2 h => hc s2 h)
      refine OutT.safe_bind' (winWork_safe (fun _ h => h) (List.mem_cons_self ..) (winExtents_work r.handle b.data beyond)) ?_
      rintro ⟨es, part, data⟩ s2 rfl
      exact winNextVolume_safe find _ _ _ _ (List.mem_cons_of_mem _ hs) (fun name b => ih name b _ (List.mem_cons_of_mem _ hs))

theorem winEnumVolumes_safe (conv : Wide → Bytes) (beyond : Nat → Byte) (fuel : Nat) (s : List WinRes) :
    OutT.Safe resW (StillHeld s) (winEnumVolumes conv beyond fuel) s (fun _ s' => s' = s) := by
  unfold winEnumVolumes
  refine OutT.safe_ask_bind (fun _ h => h) (asksNothing_keeps (.setErrorMode 1) trivial).1 (fun m _ => ?_)
  rw [(asksNothing_keeps (.setErrorMode 1) trivial).2 m]
  have hm : ∀ (K : List WinRes → Prop) s2, StillHeld s s2 → K s2 →
      OutT.Safe resW (StillHeld s) (OutT.call (.setErrorMode m.n)) s2 (fun _ s3 => K s3) := by
    intro K s2 h hK
    refine OutT.safe_ask_bind h (asksNothing_keeps (.setErrorMode m.n) trivial).1 (fun r _ => OutT.safe_ret ?_)
    rw [(asksNothing_keeps (.setErrorMode m.n) trivial).2 r]
    exact hK
  refine OutT.safe_defer (B := StillHeld s) (C := fun _ s' => s' = s) ?_ (fun _ h => h) (fun s2 h => hm _ s2 h h)
    (fun a s2 h => hm _ s2 (fun x hx => by rw [h]; exact hx) h)
  unfold winSearchVolumes
  refine OutT.safe_ask_bind (fun _ h => h) (fun _ h => by cases h) (fun f hf => ?_)
  cases he : f.err with
  | some e =>
    rw [show resW.next s .firstVolume f = s by simp [resW, resNext, winEnds, winGives, he]]
    exact OutT.safe_ret rfl
  | none =>
    rw [show resW.next s .firstVolume f = .search f.handle :: s by simp [resW, resNext, winEnds, winGives, he]]
    have hn : WinRes.search f.handle ∉ s := hf _ (by simp [winGives, he])
    dsimp only
    refine OutT.safe_bind' (C := fun _ s' => s' = s) ?_ (fun _ s' h => OutT.safe_ret h)
    refine OutT.safe_defer (winVolumeLoop_safe conv beyond f.handle fuel _ _ _ (List.mem_cons_self ..))
      (fun s2 h x hx => h x (List.mem_cons_of_mem _ hx)) (fun s2 h2 => ?_) ?_
    · refine OutT.safe_ask_bind (fun x hx => h2 x (List.mem_cons_of_mem _ hx))
        (fun x hx => by cases hx; exact h2 _ (List.mem_cons_self ..)) (fun r' _ => OutT.safe_ret (fun x hx => ?_))
      show x ∈ s2.filter _
      rw [List.mem_filter]
      refine ⟨h2 x (List.mem_cons_of_mem _ hx), ?_⟩
      have : x ≠ .search f.handle := fun e => hn (e ▸ hx)
      simpa using this
    · rintro a s2 rfl
      refine OutT.safe_ask_bind (fun x hx => List.mem_cons_of_mem _ hx)
        (fun x hx => by cases hx; exact List.mem_cons_self ..) (fun r' _ => OutT.safe_ret ?_)
      exact filter_cons_fresh hn

/-! ## the methods of a handle -/

theorem winDrvPlaced_keeps {B : List WinRes → Prop} (k : WinDrv) (q : DrvReq) (hq : q ≠ .close) (s : List WinRes) (hB : B s)
    (hs : ∀ x ∈ k.owned, x ∈ s) : OutT.Safe resA B (winDrvPlaced k q) s (fun _ s' => s' = s) := by
  unfold winDrvPlaced
  refine OutT.safe_ask_bind hB (fun _ h => by cases h) (fun r _ => ?_)
  exact OutT.safe_mono (onWindows_safe (OutT.safe_of_asks hB (winDrv_work k _ _ _ q hq) (worksFor_keeps hs)
    (OutT.returns_any _))) (fun _ _ h => h.2)

/-- Calls of drivers, none of which closes. -/
theorem method_safe {B : List WinRes → Prop} {α : Type} (o : WinOpened) (p : Handle → DrvM α) (s : List WinRes)
    (hp : Gentle o.handle (p o.handle)) (hB : B s)
    (ho : o.handle.dh ≠ none → ∃ k, o.drv = some k ∧ ∀ x ∈ k.owned, x ∈ s) {C : α → Prop} (hr : OutT.Returns C (p o.handle)) :
    OutT.Safe resA B (o.method p) s (fun a s' => C a ∧ s' = s) := by
  let T : Policy DrvReq DrvRep (List WinRes) :=
    ⟨fun s' q => s' = s ∧ q ≠ .close ∧ o.handle.dh ≠ none, fun _ _ _ => True, fun s' _ _ => s'⟩
  have hT : OutT.Safe T B (p o.handle) s (fun a s' => C a ∧ s' = s) := by
    by_cases hd : o.handle.dh = none
    · exact OutT.safe_of_asks (P := T) hB (hp.2 hd) (fun q h => h.elim) hr
    · exact OutT.safe_of_asks (P := T) hB hp.1 (fun q h => ⟨⟨rfl, h, hd⟩, fun _ => rfl⟩) hr
  unfold WinOpened.method
  cases hk : o.drv with
  | none =>
    refine OutT.safe_interp (P := T) _ (fun q s' _ ha => ?_) hT
    obtain ⟨k, h1, _⟩ := ho ha.2.2
    rw [hk] at h1
    cases h1
  | some k =>
    refine OutT.safe_interp (P := T) _ (fun q s' hB' ha => ?_) hT
    obtain ⟨rfl, h1, h2⟩ := ha
    obtain ⟨k', h3, h4⟩ := ho h2
    rw [hk] at h3
    cases h3
    exact OutT.safe_mono (winDrvPlaced_keeps k q h1 s' hB' h4) (fun _ _ h => ⟨trivial, h⟩)

theorem tcgOnWindows_safe {B : List WinRes → Prop} {α : Type} (o : WinOpened) (p : TcgM α) (s : List WinRes) (hB : B s)
    (ho : o.handle.dh ≠ none → ∃ k, o.drv = some k ∧ ∀ x ∈ k.owned, x ∈ s) :
    OutT.Safe resA B (tcgOnWindows o p) s (fun _ s' => s' = s) := by
  let T : Policy SecReq SecRep (List WinRes) := ⟨fun s' _ => s' = s, fun _ _ _ => True, fun s' _ _ => s'⟩
  refine OutT.safe_interp (P := T) (secOnWindows o) ?_ ?_
  · intro q s' hB' hs'
    obtain rfl : s' = s := hs'
    cases q with
    | sec rw dma p c data to =>
      exact OutT.safe_mono (method_safe o (fun h => h.securityCommand rw dma p c data to) s' (gentle_security ..) hB' ho (OutT.returns_any _))
        (fun _ _ h => ⟨trivial, h.2⟩)
    | now => exact OutT.safe_ask_bind hB' (fun _ h => by cases h) (fun _ _ => OutT.safe_ret ⟨trivial, rfl⟩)
    | sleep ns => exact OutT.safe_ask_bind hB' (fun _ h => by cases h) (fun _ _ => OutT.safe_ret ⟨trivial, rfl⟩)
  · exact OutT.safe_mono (OutT.safe_of_asks hB (OutT.asks_true p) (fun q _ => ⟨rfl, fun _ => rfl⟩) (OutT.returns_any p))
      (fun _ _ h => h.2)

end Dparm
