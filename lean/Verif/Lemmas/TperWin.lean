import Verif.Spec.TperWin
import Verif.Lemmas.TperLinux
import Verif.Props.WinTcgNvme
/-!
# Lemmas: a conforming drive behind the Windows miniport driver
-/
namespace Dparm
open Spec

/-- The state of the drive after a history of the TCG layer. -/
def stateOnWin (o : WinOpened) (env : Prog.Env WAReq WARep) (h : Prog.Trace WAReq WARep)
    (st : Prog.Trace WAReq WARep → DriveState) (H : Prog.Trace SecReq SecRep) : DriveState :=
  st (OutT.lowered (secOnWindows o) env h H)

/-- The environment the TCG layer sees. -/
abbrev envOnWin (o : WinOpened) (env : Prog.Env WAReq WARep) (h : Prog.Trace WAReq WARep) : Prog.Env SecReq SecRep :=
  OutT.upperEnv (secOnWindows o) env {} h

/-- One security command of at most 4096 bytes, seen from both sides. -/
theorem sec_on_miniport {sh : Nat} {dr : Drive} {W : Nat} {env : Prog.Env WAReq WARep} {st : Prog.Trace WAReq WARep → DriveState}
    (hc : MiniportConforming sh dr W env st) {o : WinOpened} (ho : MiniportDrive o sh) (h : Prog.Trace WAReq WARep)
    (H : Prog.Trace SecReq SecRep) (rw : Bool) (c : BitVec 16) (buf : Bytes) (to : Nat) (hlen : buf.length ≤ 4096) :
    ∃ inb h2 b, IsMiniportSecurity rw 1 c buf inb ∧ st h2 = stateOnWin o env h st H ∧
      envOnWin o env h H (.sec rw false 1 c buf to) =
        { err := (env h2 (miniportIoctl sh inb)).sys.err,
          data := miniportGot buf inb (env h2 (miniportIoctl sh inb)).sys, behind := b } ∧
      stateOnWin o env h st (H ++ [(.sec rw false 1 c buf to, envOnWin o env h H (.sec rw false 1 c buf to))]) =
        st (h2 ++ [(miniportIoctl sh inb, env h2 (miniportIoctl sh inb))]) := by
  obtain ⟨h', hs, id, hd⟩ := ho
  obtain ⟨g, hg⟩ : ∃ g, g = OutT.lowered (secOnWindows o) env h H := ⟨_, rfl⟩
  obtain ⟨a1, a2, k1, -⟩ := miniport_step hs hd rw false 1 c buf to (by omega) env g
  obtain ⟨inb, a, hk, hr⟩ := k1 hlen
  have e1 := OutT.run_answers env _ g [] _ _ _
    (show (OutT.run env g (secOnWindows o (.sec rw false 1 c buf to))).2 = _ by rw [hr]; rfl)
  have e2 := OutT.run_answers env _ g [(.place, a1)] _ _ _
    (show (OutT.run env g (secOnWindows o (.sec rw false 1 c buf to))).2 = _ by rw [hr]; rfl)
  have e3 := OutT.run_answers env _ g [(.place, a1), (.place, a2)] _ _ _
    (show (OutT.run env g (secOnWindows o (.sec rw false 1 c buf to))).2 = _ by rw [hr]; rfl)
  have s1 := hc.other g .place (fun x => x)
  have s2 := hc.other (g ++ [(.place, a1)]) .place (fun x => x)
  rw [List.append_nil] at e1
  rw [← e1] at s1
  rw [← e2, List.append_assoc] at s2
  refine ⟨inb, g ++ [(.place, a1), (.place, a2)], a2.behind, hk, ?_, ?_, ?_⟩
  · rw [show g ++ [(WAReq.place, a1), (.place, a2)] = g ++ ([(.place, a1)] ++ [(.place, a2)]) from rfl, s2, s1, hg]
    rfl
  · rw [← e3]
    unfold envOnWin OutT.upperEnv OutT.answer
    rw [← hg, hr]
  · unfold stateOnWin
    rw [lowered_snoc, ← hg, hr, ← e3, List.append_assoc]
    rfl

theorem miniportGot_received {inb : Bytes} {a : WARep} (h : a.sys.err = none) :
    miniportGot (zeros 2048) inb a.sys = delivered (zeros 2048) (miniportReceived inb a) := by
  unfold miniportGot miniportReceived
  rw [if_pos h, zeros_length]

/-- A conforming drive behind the miniport driver is a conforming drive for the TCG layer. -/
theorem conforming_on_miniport {sh : Nat} {dr : Drive} {W : Nat} {env : Prog.Env WAReq WARep}
    {st : Prog.Trace WAReq WARep → DriveState} (hc : MiniportConforming sh dr W env st) {o : WinOpened}
    (ho : MiniportDrive o sh) (h : Prog.Trace WAReq WARep) : Conforming dr W (envOnWin o env h) (stateOnWin o env h st) := by
  constructor
  · intro H data secs p hl hdvd hp hcom
    obtain ⟨k, h2, b, hk, hst, he, hn⟩ := sec_on_miniport hc ho h H true dr.comId data secs hl
    obtain ⟨a1, tper, w, ht, hw, a2⟩ := hc.send h2 k data p hk hl hdvd hp hcom
    refine ⟨by rw [he]; exact a1, tper, w, ht, hw, ?_⟩
    rw [hn, a2, hst]
  · intro H secs a w ha hw
    obtain ⟨k, h2, b, hk, hst, he, hn⟩ := sec_on_miniport hc ho h H false dr.comId (zeros 2048) secs (by rw [zeros_length]; omega)
    rw [← hst] at ha hw
    obtain ⟨a1, a2, a3⟩ := hc.notReady h2 k a w hk ha hw
    refine ⟨by rw [he]; exact a1, by rw [he, miniportGot_received a1]; exact notReady_delivered a2, ?_⟩
    rw [hn, a3, hst]
  · intro H secs a ha hw
    obtain ⟨k, h2, b, hk, hst, he, hn⟩ := sec_on_miniport hc ho h H false dr.comId (zeros 2048) secs (by rw [zeros_length]; omega)
    rw [← hst] at ha hw
    obtain ⟨a1, ⟨ts, a2, a2'⟩, a3⟩ := hc.ready h2 k a hk ha hw
    refine ⟨by rw [he]; exact a1, ⟨ts, a2, by rw [he, miniportGot_received a1]; exact carries_delivered a2'⟩, ?_⟩
    rw [hn, a3, hst]
  · intro H
    unfold stateOnWin
    rw [lowered_snoc]
    show st (_ ++ (OutT.run env _ (OutT.ask WAReq.now >>= _)).2) = _
    rw [OutT.run_ask_bind]
    exact hc.other _ .now (fun x => x)
  · intro H ns
    unfold stateOnWin
    rw [lowered_snoc]
    show st (_ ++ (OutT.run env _ (OutT.ask (WAReq.sleep ns) >>= _)).2) = _
    rw [OutT.run_ask_bind]
    exact hc.other _ (.sleep ns) (fun x => x)

theorem prompt_on_win {o : WinOpened} {env : Prog.Env WAReq WARep} (hp : PromptWindows env) (h : Prog.Trace WAReq WARep) :
    Prompt (envOnWin o env h) := by
  intro H H'
  exact hp _ _

theorem miniport_total {o : WinOpened} {sh : Nat} (ho : MiniportDrive o sh) {comId : BitVec 16} (env : Prog.Env WAReq WARep)
    {q : SecReq} (hq : TcgAsk comId q) (h : Prog.Trace WAReq WARep) :
    ∃ r, (OutT.run env h (secOnWindows o q)).1 = .ret r ∧ True := by
  obtain ⟨h', hs, identity, hd⟩ := ho
  cases q with
  | now => exact ⟨_, by unfold secOnWindows; rw [OutT.run_ask_bind]; rfl, trivial⟩
  | sleep ns => exact ⟨_, by unfold secOnWindows; rw [OutT.run_ask_bind]; rfl, trivial⟩
  | sec rw dma p c buf to =>
    have hb : buf.length < 2 ^ 32 := by
      cases rw with
      | true => have h5 := hq.2.2.2.2.2.1; omega
      | false => rw [show buf = zeros 2048 from hq.2.2.2.2, zeros_length]; omega
    obtain ⟨a1, a2, k1, k2⟩ := miniport_step hs hd rw dma p c buf to hb env h
    by_cases hb : buf.length ≤ 4096
    · obtain ⟨inb, a, hk, hr⟩ := k1 hb
      exact ⟨_, by rw [hr], trivial⟩
    · exact ⟨_, by rw [k2 (by omega)], trivial⟩

/-- Running a TCG operation on the drive. -/
theorem run_on_miniport {α : Type} {o : WinOpened} {sh : Nat} (ho : MiniportDrive o sh) (comId : BitVec 16) (p : TcgM α)
    (hp : OutT.Asks (TcgAsk comId) p) (env : Prog.Env WAReq WARep) (h : Prog.Trace WAReq WARep)
    (st : Prog.Trace WAReq WARep → DriveState) :
    (OutT.run env h (tcgOnWindows o p)).1 = (OutT.run (envOnWin o env h) [] p).1 ∧
    st (h ++ (OutT.run env h (tcgOnWindows o p)).2) = stateOnWin o env h st (OutT.run (envOnWin o env h) [] p).2 := by
  obtain ⟨h1, h2⟩ := OutT.interp_run (A := TcgAsk comId) (B := fun _ _ => True) (secOnWindows o) env {} h
    (fun q hq h => miniport_total ho env hq h) (p := p) (OutT.within_of_asks hp)
  refine ⟨h1, ?_⟩
  unfold tcgOnWindows
  rw [h2]
  rfl

end Dparm
