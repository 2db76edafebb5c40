import Verif.Lemmas.TperWinOpen
import Verif.Props.TperWin
/-!
# Properties: a conforming drive behind the Windows miniport, from opening the path on (C175)
-/
namespace Dparm
open Spec

/-- `OpenByPath` of the Windows factory in the whole program. -/
abbrev winOpenNode (w : WinRun) (b b' : Nat) (path : Bytes) : WAM (Res WinOpened) :=
  OutT.interp winCall (winOpenByPath w (winOpeners b b') path)

/-- **C175, opening.** Whenever opening gives a drive of the miniport driver on the adapter handle `sh`, the TCG layer finds
an Opal device with the drive's ComID, and opening did not change the drive's TCG state. -/
theorem open_conforming_miniport {sh : Nat} {dr : Drive} {W : Nat} {env : Prog.Env WAReq WARep}
    {st : Prog.Trace WAReq WARep → DriveState} (hc : MiniportConforming sh dr W env st) (ha : MiniportAnnounces sh dr env)
    (w : WinRun) (b b' : Nat) (path : Bytes) (h t : Prog.Trace WAReq WARep) (o : WinOpened) (hd : Nat)
    (hrun : OutT.run env h (winOpenNode w b b' path) = (.ret (.ok o), t)) (ho : o.drv = some (.nvmeWin hd sh)) :
    (o.tcgDevice.kind = .opal1 ∨ o.tcgDevice.kind = .opal2) ∧ o.tcgDevice.baseComId = dr.comId ∧ st (h ++ t) = st h := by
  obtain ⟨-, a, b, c⟩ := win_open_conforming hc ha w b b' path h o hd (by rw [hrun]) ho
  rw [hrun] at c
  exact ⟨a, b, c⟩

/-- **C175, opening succeeds.** If the path opens as a disk whose layout Windows keeps to itself or tells completely, at an
adapter whose miniport executes Identify, then whatever the rest of the system answers, opening gives a drive of the miniport
driver on that adapter. -/
theorem open_succeeds_miniport {hd sh : Nat} {dr : Drive} {path : Bytes} {env : Prog.Env WAReq WARep}
    (ha : MiniportAnnounces sh dr env) (hn : MiniportNode hd sh path env) (w : WinRun) (b b' : Nat)
    (h : Prog.Trace WAReq WARep) :
    ∃ o, (OutT.run env h (winOpenNode w b b' path)).1 = .ret (.ok o) ∧ o.drv = some (.nvmeWin hd sh) :=
  win_open_succeeds ha hn w b b' h

section
variable {hd sh : Nat} {dr : Drive} {W : Nat} {env : Prog.Env WAReq WARep} {st : Prog.Trace WAReq WARep → DriveState}
  {w : WinRun} {b b' : Nat} {path : Bytes} {h₀ : Prog.Trace WAReq WARep} {o : WinOpened}

/-- **C175, PSID revert.** On a drive opened that way, at any later time: with a session left, `RevertTPer` with the
drive's PSID succeeds and the drive is in factory state; with any other password it fails with TCG error 1 and changes
neither credential nor content. -/
theorem psid_revert_opened_win (hc : MiniportConforming sh dr W env st) (ha : MiniportAnnounces sh dr env)
    (hp : PromptWindows env) (hopen : (OutT.run env h₀ (winOpenNode w b b' path)).1 = .ret (.ok o))
    (ho : o.drv = some (.nvmeWin hd sh)) (ctx : Ctx) (hf : W < ctx.fuel) (pw : Bytes) (adm : Bool)
    (hl : pw.length ≤ 400) (hne : dr.psid ≠ []) (h : Prog.Trace WAReq WARep)
    (hroom : (st h).sessions.length < dr.maxSessions) (r : Out (Option GoErr)) (t : Prog.Trace WAReq WARep)
    (hrun : OutT.run env h (tcgOnWindows o (o.tcgDevice.revertTPer ctx pw true adm)) = (r, t)) :
    (pw = dr.psid → r = .ret none ∧ st (h ++ t) = ⟨dr.msid, [], none, 0, (st h).reverts + 1⟩) ∧
    (pw ≠ dr.psid → r = .ret (some (.tcg 1)) ∧ (st (h ++ t)).reverts = (st h).reverts ∧
      (st (h ++ t)).sid = (st h).sid) := by
  obtain ⟨hm, hk, hcom, -⟩ := win_open_conforming hc ha w b b' path h₀ o hd hopen ho
  exact psid_revert_miniport hc hp o hm hk hcom ctx hf pw adm hl hne h hroom r t hrun

/-- **C175, SID revert.** The same with the SID, by the key derived from the password and the opened drive's serial. -/
theorem sid_revert_opened_win (hc : MiniportConforming sh dr W env st) (ha : MiniportAnnounces sh dr env)
    (hp : PromptWindows env) (hopen : (OutT.run env h₀ (winOpenNode w b b' path)).1 = .ret (.ok o))
    (ho : o.drv = some (.nvmeWin hd sh)) (ctx : Ctx) (hf : W < ctx.fuel) (pw : Bytes) (adm : Bool)
    (h : Prog.Trace WAReq WARep) (hroom : (st h).sessions.length < dr.maxSessions)
    (r : Out (Option GoErr)) (t : Prog.Trace WAReq WARep)
    (hrun : OutT.run env h (tcgOnWindows o (o.tcgDevice.revertTPer ctx pw false adm)) = (r, t)) :
    (pw ≠ [] ∧ (st h).sid = [0xd0, 0x20] ++ ctx.kdf.key (pw.take 32) o.tcgDevice.serial →
      r = .ret none ∧ st (h ++ t) = ⟨dr.msid, [], none, 0, (st h).reverts + 1⟩) ∧
    (pw = [] ∨ (st h).sid ≠ [0xd0, 0x20] ++ ctx.kdf.key (pw.take 32) o.tcgDevice.serial →
      r = .ret (some (.tcg 1)) ∧ (st (h ++ t)).reverts = (st h).reverts ∧ (st (h ++ t)).sid = (st h).sid) := by
  obtain ⟨hm, hk, hcom, -⟩ := win_open_conforming hc ha w b b' path h₀ o hd hopen ho
  exact sid_revert_miniport hc hp o hm hk hcom ctx hf pw adm h hroom r t hrun

/-- **C175, safety.** Without any assumption on the clock or the number of sessions: success is only reported in factory
state and with the right password, and a wrong password never reverts the drive. -/
theorem revert_safe_opened_win (hc : MiniportConforming sh dr W env st) (ha : MiniportAnnounces sh dr env)
    (hopen : (OutT.run env h₀ (winOpenNode w b b' path)).1 = .ret (.ok o))
    (ho : o.drv = some (.nvmeWin hd sh)) (ctx : Ctx) (hf : W < ctx.fuel) (pw : Bytes) (psid adm : Bool)
    (hl : psid = true → pw.length ≤ 400) (h : Prog.Trace WAReq WARep)
    (r : Out (Option GoErr)) (t : Prog.Trace WAReq WARep)
    (hrun : OutT.run env h (tcgOnWindows o (o.tcgDevice.revertTPer ctx pw psid adm)) = (r, t)) :
    (r = .ret none → st (h ++ t) = ⟨dr.msid, [], none, 0, (st h).reverts + 1⟩ ∧ pw ≠ [] ∧
      (if psid then pw = dr.psid else
        (st h).sid = [0xd0, 0x20] ++ ctx.kdf.key (pw.take 32) o.tcgDevice.serial)) ∧
    ((if psid then pw ≠ dr.psid else
        (st h).sid ≠ [0xd0, 0x20] ++ ctx.kdf.key (pw.take 32) o.tcgDevice.serial) →
      (st (h ++ t)).reverts = (st h).reverts ∧ (st (h ++ t)).sid = (st h).sid) := by
  obtain ⟨hm, hk, hcom, -⟩ := win_open_conforming hc ha w b b' path h₀ o hd hopen ho
  exact revert_safe_miniport hc o hm hk hcom ctx hf pw psid adm hl h r t hrun

/-- **C175, default password.** `GetDefaultPassword` on the opened drive: the MSID while a session is left, TCG error 7
afterwards. -/
theorem msid_opened_win (hc : MiniportConforming sh dr W env st) (ha : MiniportAnnounces sh dr env)
    (hp : PromptWindows env) (hopen : (OutT.run env h₀ (winOpenNode w b b' path)).1 = .ret (.ok o))
    (ho : o.drv = some (.nvmeWin hd sh)) (ctx : Ctx) (hf : W < ctx.fuel) (h : Prog.Trace WAReq WARep)
    (r : Out (Bytes × Option GoErr)) (t : Prog.Trace WAReq WARep)
    (hrun : OutT.run env h (tcgOnWindows o (o.tcgDevice.getDefaultPassword ctx)) = (r, t)) :
    (st (h ++ t)).sid = (st h).sid ∧ (st (h ++ t)).reverts = (st h).reverts ∧
    ((st h).sessions.length < dr.maxSessions → r = .ret (dr.msid, none) ∧
      (st (h ++ t)).sessions.length = (st h).sessions.length + 1) ∧
    (dr.maxSessions ≤ (st h).sessions.length → r = .ret ([], some (.tcg 7)) ∧
      (st (h ++ t)).sessions = (st h).sessions) := by
  obtain ⟨hm, hk, hcom, -⟩ := win_open_conforming hc ha w b b' path h₀ o hd hopen ho
  exact msid_on_miniport hc hp o hm hk hcom ctx hf h r t hrun

end

/-! ## A system that meets the hypotheses -/

theorem idealWin_announces (sh : Nat) (dr : Drive) (hcid : dr.comId ≠ 1) (s0 : DriveState) :
    MiniportAnnounces sh dr (idealWin sh dr s0) := by
  refine ⟨fun h inb hk => ?_, hcid⟩
  have hs := asMiniportSec_security (sh := sh) hk (by rw [zeros_length]; omega)
  have he : idealWin sh dr s0 h (miniportIoctl sh inb) = { sys := { out := inb.take 152 ++ discoveryBlock dr.comId } } := by
    unfold idealWin
    simp only [hs, if_pos]
  have hl := (discoveryBlock_announces dr.comId).choose_spec.1
  exact ⟨by rw [he], by rw [he, miniportReceived_of hk.length hl _ rfl]; exact discoveryBlock_announces dr.comId⟩

theorem idealWin_node (sh : Nat) (dr : Drive) (s0 : DriveState) :
    MiniportNode (sh + 1) sh (ascii "\\\\.\\PhysicalDrive0") (idealWin sh dr s0) where
  text := by decide
  opens h := ⟨rfl, rfl⟩
  layout h a ha := .inl ⟨.errno 1, by
    rw [ha]
    show (idealWin sh dr s0 h (.sys (.ioctl (sh + 1) 0x70050 [] 4096 none))).sys.err = _
    have : asMiniportSec sh (.sys (.ioctl (sh + 1) 0x70050 [] 4096 none)) = none := by
      unfold asMiniportSec
      simp
    unfold idealWin
    simp only [this]
    rfl, by decide⟩
  address h := by
    have : asMiniportSec sh (.sys (.ioctl (sh + 1) 0x41018 (zeros 8) 8 none)) = none := by
      unfold asMiniportSec
      simp
    unfold idealWin
    simp only [this]
    rfl
  adapter h text := by
    refine ⟨rfl, ?_⟩
    show (if ((ascii "\\\\.\\SCSI" ++ text ++ ascii ":").take 8 = ascii "\\\\.\\SCSI") then sh else sh + 1) = sh
    rw [List.append_assoc, List.take_left' (by decide), if_pos rfl]
  identifies h inb hl hop := by
    have : asMiniportSec sh (miniportIoctl sh inb) = none := by
      unfold asMiniportSec miniportIoctl
      simp [hop]
    unfold idealWin
    simp only [this]
    rfl

/-- A run. -/
def sampleWinRun : WinRun := ⟨0x1000, 0x1000, 0x2000, fun _ => 0#8, fun _ => 0#8⟩

/-- Such a path is opened. -/
theorem win_opens_owned : ∃ o, (OutT.run (idealWin 9 shippedDrive ownedState) []
      (winOpenNode sampleWinRun 0x1000 0x1000 (ascii "\\\\.\\PhysicalDrive0"))).1 = .ret (.ok o) ∧ o.drv = some (.nvmeWin 10 9) :=
  open_succeeds_miniport (idealWin_announces 9 shippedDrive (by decide) ownedState) (idealWin_node _ _ _) _ _ _ _

/-- Opened, the drive is reverted by its PSID at any later time while a session is left, and not by another password; the
MSID is read; the SID revert succeeds with the owner's password only. -/
example : ∃ o, (OutT.run (idealWin 9 shippedDrive ownedState) []
      (winOpenNode sampleWinRun 0x1000 0x1000 (ascii "\\\\.\\PhysicalDrive0"))).1 = .ret (.ok o) ∧ o.tcgDevice.baseComId = 0x07fe ∧
    let run := fun {α : Type} (h : Prog.Trace WAReq WARep) (p : TcgM α) =>
      OutT.run (idealWin 9 shippedDrive ownedState) h (tcgOnWindows o p)
    let d := o.tcgDevice
    (∀ h, (idealWinState 9 shippedDrive ownedState h).sessions.length < 1 →
      (run h (d.revertTPer sampleCtx [0x50, 0x31] true true)).1 = .ret none ∧
      (run h (d.revertTPer sampleCtx [0x50, 0x32] true true)).1 = .ret (some (.tcg 1))) ∧
    (run [] (d.getDefaultPassword sampleCtx)).1 = .ret ([0x4d, 0x31], none) ∧
    (run [] (d.revertTPer sampleCtx [0x70, 0x77] false true)).1 = .ret none ∧
    (run [] (d.revertTPer sampleCtx [] false true)).1 = .ret (some (.tcg 1)) ∧
    (idealWinState 9 shippedDrive ownedState (run [] (d.revertTPer sampleCtx [0x50, 0x32] true true)).2).reverts = 0 := by
  have hc := idealWin_conforming 9 shippedDrive (by decide) (by decide) ownedState rfl rfl
  have ha := idealWin_announces 9 shippedDrive (by decide) ownedState
  have hpr := idealWin_prompt 9 shippedDrive ownedState
  obtain ⟨o, hopen, ho⟩ := win_opens_owned
  refine ⟨o, hopen, (open_conforming_miniport hc ha _ _ _ _ [] _ o 10 (Prod.ext hopen rfl) ho).2.1, ?_, ?_, ?_, ?_, ?_⟩
  · intro h hroom
    exact ⟨((psid_revert_opened_win hc ha hpr hopen ho sampleCtx (by decide) [0x50, 0x31] true (by decide) (by decide) h hroom
        _ _ (Prod.eta _).symm).1 rfl).1,
      ((psid_revert_opened_win hc ha hpr hopen ho sampleCtx (by decide) [0x50, 0x32] true (by decide) (by decide) h hroom
        _ _ (Prod.eta _).symm).2 (by decide)).1⟩
  · exact ((msid_opened_win hc ha hpr hopen ho sampleCtx (by decide) [] _ _ (Prod.eta _).symm).2.2.1 (by decide)).1
  · exact ((sid_revert_opened_win hc ha hpr hopen ho sampleCtx (by decide) [0x70, 0x77] true [] (by decide) _ _
      (Prod.eta _).symm).1 ⟨by decide, rfl⟩).1
  · exact ((sid_revert_opened_win hc ha hpr hopen ho sampleCtx (by decide) [] true [] (by decide) _ _
      (Prod.eta _).symm).2 (.inl rfl)).1
  · exact ((revert_safe_opened_win hc ha hopen ho sampleCtx (by decide) [0x50, 0x32] true true (by decide) [] _ _
      (Prod.eta _).symm).2 (show ([0x50, 0x32] : Bytes) ≠ [0x50, 0x31] by decide)).1

end Dparm
