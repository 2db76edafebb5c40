import Verif.Spec.TperScsi
import Verif.Lemmas.TperOpen
import Verif.Props.TcgScsi
/-!
# Lemmas: a conforming drive behind the Linux SCSI generic driver
-/
namespace Dparm
open Spec

/-- One security command whose first ioctl succeeds. -/
theorem scsi_once {o : Opened} {fd : Nat} (ho : ScsiDrive o fd) (rw : Bool) (c : BitVec 16) (buf : Bytes) (to : Nat)
    (hne : buf ≠ []) (hlen : buf.length < 4294967296) (env : Prog.Env AReq ARep) (g : Prog.Trace AReq ARep)
    (hok : ∀ q, IsSecurityProtocol rw 1 c buf.length q → HasMemory q (if rw then buf else zeros buf.length) →
      (env (g ++ [(.sys .place, env g (.sys .place))]) (sgIoctl fd q)).sys.sg.err = none) :
    ∃ rep q a1 a, OutT.run env g (secOnLinux o (.sec rw false 1 c buf to)) =
        (.ret rep, [(.sys .place, a1), (sgIoctl fd q, a)]) ∧
      a1 = env g (.sys .place) ∧ a = env (g ++ [(.sys .place, a1)]) (sgIoctl fd q) ∧
      IsSecurityProtocol rw 1 c buf.length q ∧ HasMemory q (if rw then buf else zeros buf.length) ∧
      a.sys.sg.err = none ∧ rep.err = none ∧
      rep.data = if rw then buf else delivered (zeros buf.length) a.sys.sg.data := by
  obtain ⟨hs, id, hd⟩ := ho
  obtain ⟨rep, u, hr, hsec, -⟩ := scsi_step hs hd rw 1 c buf to hne hlen env g
  have e1 : ∀ a1 q a rest, u = (.sys .place, a1) :: (sgIoctl fd q, a) :: rest →
      a1 = env g (.sys .place) ∧ a = env (g ++ [(.sys .place, a1)]) (sgIoctl fd q) := by
    intro a1 q a rest hu
    have h1 := OutT.run_answers env _ g [] _ _ _
      (show (OutT.run env g (secOnLinux o (.sec rw false 1 c buf to))).2 = _ by rw [hr]; exact hu)
    have h2 := OutT.run_answers env _ g [(.sys .place, a1)] _ _ _
      (show (OutT.run env g (secOnLinux o (.sec rw false 1 c buf to))).2 = _ by rw [hr]; exact hu)
    rw [List.append_nil] at h1
    exact ⟨h1, h2⟩
  have bad : ∀ a1 q a rest addr m, u = (.sys .place, a1) :: (sgIoctl fd q, a) :: rest →
      IsSecurityProtocol rw 1 c buf.length q → q.dxferp = .mem addr m → (m = if rw then buf else zeros buf.length) →
      a.sys.sg.err = none := by
    intro a1 q a rest addr m hu hc hm hh
    obtain ⟨x1, x2⟩ := e1 a1 q a rest hu
    rw [x2, x1]
    exact hok q hc ⟨addr, by rw [hm, hh]⟩
  cases hsec with
  | @direct q u a₁ a addr m _ cmd mem held io ok data =>
    generalize hv : (none : Option GoErr) = v' at io
    cases io with
    | once okk =>
      obtain ⟨x1, x2⟩ := e1 _ _ _ _ rfl
      refine ⟨rep, q, a₁, a, hr, x1, x2, cmd, ⟨addr, by rw [mem, held]⟩, okk, ok, ?_⟩
      cases rw with
      | true => exact data
      | false => exact (data.1 okk).trans (by rw [held]; rfl)
    | twice bd =>
      exact absurd (bad _ _ _ _ _ _ rfl cmd mem held) bd
  | @fallback q q' u v a₁ a a₂ a' addr addr' m m' now e w _ cmd mem held io between cmd' mem' held' io' bd data =>
    generalize hv : (some e : Option GoErr) = v' at io
    cases io with
    | once okk => cases hv
    | twice bd =>
      exact absurd (bad _ _ _ _ _ _ rfl cmd mem held) bd

/-- One security command, seen from both sides. -/
theorem sec_on_scsi {fd : Nat} {env : Prog.Env AReq ARep} {st : Prog.Trace AReq ARep → DriveState}
    (hplace : ∀ h, st (h ++ [(.sys .place, env h (.sys .place))]) = st h) {o : Opened} (ho : ScsiDrive o fd)
    (h : Prog.Trace AReq ARep) (H : Prog.Trace SecReq SecRep) (rw : Bool) (c : BitVec 16) (buf : Bytes) (to : Nat)
    (hne : buf ≠ []) (hlen : buf.length < 4294967296)
    (hok : ∀ h2 q, st h2 = stateOn o env h st H → IsSecurityProtocol rw 1 c buf.length q →
      HasMemory q (if rw then buf else zeros buf.length) → (env h2 (sgIoctl fd q)).sys.sg.err = none) :
    ∃ q h2, IsSecurityProtocol rw 1 c buf.length q ∧ HasMemory q (if rw then buf else zeros buf.length) ∧
      st h2 = stateOn o env h st H ∧ (env h2 (sgIoctl fd q)).sys.sg.err = none ∧
      (envOn o env h H (.sec rw false 1 c buf to)).err = none ∧
      ((envOn o env h H (.sec rw false 1 c buf to)).data =
        if rw then buf else delivered (zeros buf.length) (env h2 (sgIoctl fd q)).sys.sg.data) ∧
      stateOn o env h st (H ++ [(.sec rw false 1 c buf to, envOn o env h H (.sec rw false 1 c buf to))]) =
        st (h2 ++ [(sgIoctl fd q, env h2 (sgIoctl fd q))]) := by
  obtain ⟨g, hg⟩ : ∃ g, g = OutT.lowered (secOnLinux o) env h H := ⟨_, rfl⟩
  have hst : st (g ++ [(.sys .place, env g (.sys .place))]) = stateOn o env h st H := by rw [hplace, hg]; rfl
  obtain ⟨rep, q, a1, a, hr, x1, x2, hc, hm, hk, he, hdat⟩ := scsi_once ho rw c buf to hne hlen env g
    (fun q hc hm => hok _ q hst hc hm)
  subst x1
  have hen : envOn o env h H (.sec rw false 1 c buf to) = rep := by
    unfold envOn OutT.upperEnv OutT.answer
    rw [← hg, hr]
  rw [hen]
  refine ⟨q, g ++ [(.sys .place, env g (.sys .place))], hc, hm, hst, by rw [← x2]; exact hk, he, by rw [← x2]; exact hdat, ?_⟩
  unfold stateOn
  rw [lowered_snoc, ← hg, hr, ← x2, List.append_assoc]
  rfl

theorem place_not_tcg (fd : Nat) (c : BitVec 16) : ¬ TouchesTcgScsi fd c (.sys .place) := fun x => x

/-- A conforming drive behind the driver is a conforming drive for the TCG layer. -/
theorem conforming_on_scsi {fd : Nat} {dr : Drive} {W : Nat} {env : Prog.Env AReq ARep}
    {st : Prog.Trace AReq ARep → DriveState} (hc : ScsiConforming fd dr W env st) {o : Opened} (ho : ScsiDrive o fd)
    (h : Prog.Trace AReq ARep) : Conforming dr W (envOn o env h) (stateOn o env h st) := by
  have hpl := fun h => hc.other h (.sys .place) (place_not_tcg _ _)
  have hz : zeros 2048 ≠ [] := by intro hx; have := congrArg List.length hx; rw [zeros_length] at this; cases this
  constructor
  · intro H data secs p hl hdvd hp hcom
    have hdne : data ≠ [] := by rintro rfl; simp [readPacket] at hp
    obtain ⟨q, h2, hq, hm, hst, -, he, -, hn⟩ := sec_on_scsi hpl ho h H true dr.comId data secs hdne (by omega)
      (fun h2 q _ hq hm => (hc.send h2 q data p hq hm hl hdvd hp hcom).1)
    obtain ⟨-, tper, w, ht, hw, a2⟩ := hc.send h2 q data p hq hm hl hdvd hp hcom
    refine ⟨he, tper, w, ht, hw, ?_⟩
    rw [hn, a2, hst]
  · intro H secs a w ha hw
    obtain ⟨q, h2, hq, hm, hst, -, he, hd, hn⟩ := sec_on_scsi hpl ho h H false dr.comId (zeros 2048) secs hz
      (by rw [zeros_length]; omega)
      (fun h2 q hst hq hm => by
        rw [zeros_length] at hq hm
        rw [← hst] at ha hw
        exact (hc.notReady h2 q a w hq hm ha hw).1)
    rw [zeros_length] at hq hm hd
    rw [← hst] at ha hw
    obtain ⟨a1, a2, a3⟩ := hc.notReady h2 q a w hq hm ha hw
    refine ⟨he, ?_, ?_⟩
    · rw [hd]; exact notReady_delivered a2
    · rw [hn, a3, hst]
  · intro H secs a ha hw
    obtain ⟨q, h2, hq, hm, hst, -, he, hd, hn⟩ := sec_on_scsi hpl ho h H false dr.comId (zeros 2048) secs hz
      (by rw [zeros_length]; omega)
      (fun h2 q hst hq hm => by
        rw [zeros_length] at hq hm
        rw [← hst] at ha hw
        exact (hc.ready h2 q a hq hm ha hw).1)
    rw [zeros_length] at hq hm hd
    rw [← hst] at ha hw
    obtain ⟨a1, ⟨ts, a2, a2'⟩, a3⟩ := hc.ready h2 q a hq hm ha hw
    refine ⟨he, ⟨ts, a2, ?_⟩, ?_⟩
    · rw [hd]; exact carries_delivered a2'
    · rw [hn, a3, hst]
  · intro H
    unfold stateOn
    rw [lowered_snoc]
    show st (_ ++ (OutT.run env _ (OutT.ask AReq.now >>= _)).2) = _
    rw [OutT.run_ask_bind]
    exact hc.other _ .now (fun x => x)
  · intro H ns
    unfold stateOn
    rw [lowered_snoc]
    show st (_ ++ (OutT.run env _ (OutT.ask (AReq.sleep ns) >>= _)).2) = _
    rw [OutT.run_ask_bind]
    exact hc.other _ (.sleep ns) (fun x => x)

/-- Running a TCG operation on the drive. -/
theorem run_on_scsi {α : Type} {o : Opened} {fd : Nat} (ho : ScsiDrive o fd) (comId : BitVec 16) (p : TcgM α)
    (hp : OutT.Asks (TcgAsk comId) p) (env : Prog.Env AReq ARep) (h : Prog.Trace AReq ARep)
    (st : Prog.Trace AReq ARep → DriveState) :
    (OutT.run env h (tcgOnLinux o p)).1 = (OutT.run (envOn o env h) [] p).1 ∧
    st (h ++ (OutT.run env h (tcgOnLinux o p)).2) = stateOn o env h st (OutT.run (envOn o env h) [] p).2 := by
  obtain ⟨hs, id, hd⟩ := ho
  obtain ⟨h1, h2⟩ := OutT.interp_run (A := TcgAsk comId) (B := fun _ _ => True) (secOnLinux o) env {} h
    (fun q hq h => scsi_total hs hd comId env q hq h) (p := p) (OutT.within_of_asks hp)
  refine ⟨h1, ?_⟩
  unfold tcgOnLinux
  rw [h2]
  rfl

end Dparm
