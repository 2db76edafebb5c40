import Verif.Spec.TperLinux
import Verif.Props.Tper
import Verif.Props.TcgSystem
import Verif.Props.Discovery
/-!
# Lemmas: a conforming drive behind the Linux NVMe driver
-/
namespace Dparm
open Spec

/-! ## Runs and their answers -/

theorem OutT.run_answers {Q R α : Type} (env : Prog.Env Q R) (p : OutT Q R α) :
    ∀ (h t₁ t₂ : Prog.Trace Q R) (q : Q) (a : R), (OutT.run env h p).2 = t₁ ++ (q, a) :: t₂ → a = env (h ++ t₁) q := by
  have key : ∀ (p : Prog Q R (Out α)) (h t₁ t₂ : Prog.Trace Q R) (q : Q) (a : R),
      (Prog.run env h p).2 = t₁ ++ (q, a) :: t₂ → a = env (h ++ t₁) q := by
    intro p
    induction p with
    | done o => intro h t₁ t₂ q a he; simp at he
    | ask q' k ih =>
      intro h t₁ t₂ q a he
      rw [Prog.run_ask] at he
      cases t₁ with
      | nil =>
        simp only [List.nil_append, List.cons.injEq, Prod.mk.injEq] at he
        obtain ⟨⟨rfl, rfl⟩, -⟩ := he
        simp
      | cons x t₁ =>
        simp only [List.cons_append, List.cons.injEq] at he
        obtain ⟨rfl, he⟩ := he
        have := ih _ _ t₁ t₂ q a he
        simpa using this
  exact key p

/-- A state no request of a run changes is not changed by the run. -/
theorem OutT.run_quiet {Q R α S : Type} {env : Prog.Env Q R} {st : Prog.Trace Q R → S} {A : Q → Prop}
    (hq : ∀ h q, A q → st (h ++ [(q, env h q)]) = st h) (p : OutT Q R α) :
    ∀ h, (∀ x ∈ (OutT.run env h p).2, A x.1) → st (h ++ (OutT.run env h p).2) = st h := by
  have key : ∀ (p : Prog Q R (Out α)) (h : Prog.Trace Q R), (∀ x ∈ (Prog.run env h p).2, A x.1) →
      st (h ++ (Prog.run env h p).2) = st h := by
    intro p
    induction p with
    | done o => intro h _; simp
    | ask q k ih =>
      intro h ha
      rw [Prog.run_ask] at ha ⊢
      have h1 := ih _ (h ++ [(q, env h q)]) (fun x hx => ha x (List.mem_cons_of_mem _ hx))
      have h2 := hq h q (ha _ List.mem_cons_self)
      simp only
      rw [show h ++ (q, env h q) :: (Prog.run env (h ++ [(q, env h q)]) (k (env h q))).2
        = h ++ [(q, env h q)] ++ (Prog.run env (h ++ [(q, env h q)]) (k (env h q))).2 by simp, h1, h2]
  exact key p

/-! ## Blocks after delivery -/

theorem delivered_zeros (d : Bytes) (hd : d.length ≤ 2048) : delivered (zeros 2048) d = d ++ zeros (2048 - d.length) := by
  unfold delivered
  rw [zeros_length, List.take_of_length_le hd, drop_zeros]

theorem slice_pad (d z : Bytes) (i n : Nat) (h : i + n ≤ d.length) : slice (d ++ z) i n = slice d i n := by
  unfold slice
  rw [List.drop_append_of_le_length (by omega), List.take_append_of_le_length (by simp; omega)]

theorem notReady_delivered {d : Bytes} (h : NotReady d) : NotReady (delivered (zeros 2048) d) := by
  obtain ⟨h1, h2, h3, h4⟩ := h
  rw [delivered_zeros d h2]
  refine ⟨by simp; omega, by simp; omega, ?_, ?_⟩
  · rw [slice_pad _ _ _ _ (by omega)]; exact h3
  · rw [slice_pad _ _ _ _ (by omega)]; exact h4

theorem carries_delivered {d : Bytes} {ts : List Token} (h : CarriesTokens d ts) :
    CarriesTokens (delivered (zeros 2048) d) ts := by
  obtain ⟨us, h1, h2, h3, h4, h5, h6, h7, h8, h9⟩ := h
  rw [delivered_zeros d h3]
  refine ⟨us, h1, h2, by simp; omega, by simp; omega, ?_, ?_, ?_, ?_, ?_⟩
  · rw [slice_pad _ _ _ _ (by omega)]; exact h5
  · rw [slice_pad _ _ _ _ (by omega)]; exact h6
  · rw [slice_pad _ _ _ _ (by omega)]; exact h7
  · rw [slice_pad _ _ _ _ (by omega)]; exact h8
  · rw [slice_pad _ _ _ _ (by omega)]; exact h9

/-! ## The drive as the TCG layer sees it -/

theorem nvmeVerdict_ok {a : ARep} (h : NvmeOk a) : nvmeVerdict a.sys.nv = none := by
  unfold nvmeVerdict
  rw [if_neg (fun x => x h.1), if_neg (fun x => x h.2)]

/-- The state of the drive after a history of the TCG layer. -/
def stateOn (o : Opened) (env : Prog.Env AReq ARep) (h : Prog.Trace AReq ARep)
    (st : Prog.Trace AReq ARep → DriveState) (H : Prog.Trace SecReq SecRep) : DriveState :=
  st (OutT.lowered (secOnLinux o) env h H)

/-- The environment the TCG layer sees. -/
abbrev envOn (o : Opened) (env : Prog.Env AReq ARep) (h : Prog.Trace AReq ARep) : Prog.Env SecReq SecRep :=
  OutT.upperEnv (secOnLinux o) env {} h

theorem lowered_snoc {Q R Q' R' : Type} (f : Q → OutT Q' R' R) (env : Prog.Env Q' R') (h : Prog.Trace Q' R')
    (H : Prog.Trace Q R) (q : Q) (r : R) : OutT.lowered f env h (H ++ [(q, r)]) =
      OutT.lowered f env h H ++ (OutT.run env (OutT.lowered f env h H) (f q)).2 := by
  rw [OutT.lowered_append]; rfl

/-- One security command, seen from both sides. -/
theorem sec_on_nvme {fd : Nat} {dr : Drive} {W : Nat} {env : Prog.Env AReq ARep} {st : Prog.Trace AReq ARep → DriveState}
    (hc : NvmeConforming fd dr W env st) {o : Opened} (ho : NvmeDrive o fd) (h : Prog.Trace AReq ARep)
    (H : Prog.Trace SecReq SecRep) (rw : Bool) (c : BitVec 16) (buf : Bytes) (to : Nat) (hlen : buf.length < 4294967296) :
    ∃ k h2 b, IsNvmeSecurity rw 1 c buf.length k ∧ st h2 = stateOn o env h st H ∧
      envOn o env h H (.sec rw false 1 c buf to) =
        { err := nvmeVerdict (env h2 (adminIoctl fd k buf)).sys.nv,
          data := delivered buf (env h2 (adminIoctl fd k buf)).sys.nv.data, behind := b } ∧
      stateOn o env h st (H ++ [(.sec rw false 1 c buf to, envOn o env h H (.sec rw false 1 c buf to))]) =
        st (h2 ++ [(adminIoctl fd k buf, env h2 (adminIoctl fd k buf))]) := by
  obtain ⟨hs, id, hd⟩ := ho
  obtain ⟨g, hg⟩ : ∃ g, g = OutT.lowered (secOnLinux o) env h H := ⟨_, rfl⟩
  obtain ⟨k, a1, a2, a, hk, hr⟩ := nvme_step hs hd rw false 1 c buf to hlen env g
  have e1 := OutT.run_answers env _ g [] _ _ _ (show (OutT.run env g (secOnLinux o (.sec rw false 1 c buf to))).2 = _ by rw [hr]; rfl)
  have e2 := OutT.run_answers env _ g [(.sys .place, a1)] _ _ _
    (show (OutT.run env g (secOnLinux o (.sec rw false 1 c buf to))).2 = _ by rw [hr]; rfl)
  have e3 := OutT.run_answers env _ g [(.sys .place, a1), (.sys .place, a2)] _ _ _
    (show (OutT.run env g (secOnLinux o (.sec rw false 1 c buf to))).2 = _ by rw [hr]; rfl)
  have s1 := hc.other g (.sys .place) (fun x => x)
  have s2 := hc.other (g ++ [(.sys .place, a1)]) (.sys .place) (fun x => x)
  rw [List.append_nil] at e1
  rw [← e1] at s1
  rw [← e2, List.append_assoc] at s2
  refine ⟨k, g ++ [(.sys .place, a1), (.sys .place, a2)], a2.sys.behind, hk, ?_, ?_, ?_⟩
  · rw [show g ++ [(AReq.sys .place, a1), (.sys .place, a2)] = g ++ ([(.sys .place, a1)] ++ [(.sys .place, a2)]) from rfl, s2, s1, hg]
    rfl
  · rw [← e3]
    unfold envOn OutT.upperEnv OutT.answer
    rw [← hg, hr]
  · unfold stateOn
    rw [lowered_snoc, ← hg, hr, ← e3, List.append_assoc]
    rfl

/-- A conforming drive behind the driver is a conforming drive for the TCG layer. -/
theorem conforming_on_nvme {fd : Nat} {dr : Drive} {W : Nat} {env : Prog.Env AReq ARep}
    {st : Prog.Trace AReq ARep → DriveState} (hc : NvmeConforming fd dr W env st) {o : Opened} (ho : NvmeDrive o fd)
    (h : Prog.Trace AReq ARep) : Conforming dr W (envOn o env h) (stateOn o env h st) := by
  constructor
  · intro H data secs p hl hdvd hp hcom
    obtain ⟨k, h2, b, hk, hst, he, hn⟩ := sec_on_nvme hc ho h H true dr.comId data secs (by omega)
    obtain ⟨a1, tper, w, ht, hw, a2⟩ := hc.send h2 k data p hk hl hdvd hp hcom
    refine ⟨by rw [he]; exact nvmeVerdict_ok a1, tper, w, ht, hw, ?_⟩
    rw [hn, a2, hst]
  · intro H secs a w ha hw
    obtain ⟨k, h2, b, hk, hst, he, hn⟩ := sec_on_nvme hc ho h H false dr.comId (zeros 2048) secs (by rw [zeros_length]; omega)
    rw [zeros_length] at hk
    rw [← hst] at ha hw
    obtain ⟨a1, a2, a3⟩ := hc.notReady h2 k a w hk ha hw
    refine ⟨by rw [he]; exact nvmeVerdict_ok a1, by rw [he]; exact notReady_delivered a2, ?_⟩
    rw [hn, a3, hst]
  · intro H secs a ha hw
    obtain ⟨k, h2, b, hk, hst, he, hn⟩ := sec_on_nvme hc ho h H false dr.comId (zeros 2048) secs (by rw [zeros_length]; omega)
    rw [zeros_length] at hk
    rw [← hst] at ha hw
    obtain ⟨a1, ⟨ts, a2, a2'⟩, a3⟩ := hc.ready h2 k a hk ha hw
    refine ⟨by rw [he]; exact nvmeVerdict_ok a1, ⟨ts, a2, by rw [he]; exact carries_delivered a2'⟩, ?_⟩
    rw [hn, a3, hst]
  · intro H
    unfold stateOn
    rw [lowered_snoc]
    show st (_ ++ (OutT.run env _ (OutT.ask AReq.now >>= _)).2) = _
    rw [OutT.run_ask_bind]
    exact hc.other _ .now (fun x => x)
  · intro H ns
    unfold stateOn
    rw [lowered_snoc]
    show st (_ ++ (OutT.run env _ (OutT.ask (AReq.sleep ns) >>= _)).2) = _
    rw [OutT.run_ask_bind]
    exact hc.other _ (.sleep ns) (fun x => x)

theorem prompt_on {o : Opened} {env : Prog.Env AReq ARep} (hp : PromptSystem env) (h : Prog.Trace AReq ARep) :
    Prompt (envOn o env h) := by
  intro H H'
  exact hp _ _

/-- Running a TCG operation on the drive. -/
theorem run_on_nvme {α : Type} {o : Opened} {fd : Nat} (ho : NvmeDrive o fd) (comId : BitVec 16) (p : TcgM α)
    (hp : OutT.Asks (TcgAsk comId) p) (env : Prog.Env AReq ARep) (h : Prog.Trace AReq ARep)
    (st : Prog.Trace AReq ARep → DriveState) :
    (OutT.run env h (tcgOnLinux o p)).1 = (OutT.run (envOn o env h) [] p).1 ∧
    st (h ++ (OutT.run env h (tcgOnLinux o p)).2) = stateOn o env h st (OutT.run (envOn o env h) [] p).2 := by
  obtain ⟨hs, id, hd⟩ := ho
  obtain ⟨h1, h2⟩ := OutT.interp_run (A := TcgAsk comId) (B := fun _ _ => True) (secOnLinux o) env {} h
    (fun q _ h => nvme_total hs hd env q h) (p := p) (OutT.within_of_asks hp)
  refine ⟨h1, ?_⟩
  unfold tcgOnLinux
  rw [h2]
  rfl

end Dparm
