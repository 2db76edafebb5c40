import Verif.Model.WinDevelop
import Verif.Props.WinLooking
import Verif.Props.ErrorMode
import Verif.Props.Develop
/-!
# The development tool on Windows (C158)
-/
namespace Dparm
open Spec

/-- The path of the tool. -/
def developPath : Bytes := ascii "\\\\.\\PhysicalDrive1"

/-- The calls of the tool as a client's. -/
def developCalls (w w' : WinRun) (beyond : Nat → Byte) (fuel fuel' : Nat) : List WinClientCall :=
  [.openPath w developPath, .enumDrives w' fuel, .enumVolumes beyond fuel']

/-- What the opening gave. -/
def winOpenedOf : Res WinOpened → List WinOpened
  | .ok o => [o]
  | _ => []

/-- What the enumeration gave. -/
def winListedOf : Res (List WinOpened) → List WinOpened
  | .ok os => os
  | _ => []

/-- Up to its end the tool is a client that makes these calls: nothing is closed. -/
theorem win_develop_is_client (conv : Wide → Bytes) (w w' : WinRun) (beyond : Nat → Byte) (fuel fuel' : Nat)
    (env : Prog.Env WAReq WARep) (d : WinDeveloped) (t : Prog.Trace WAReq WARep)
    (h : OutT.run env [] (developWindows conv w w' beyond fuel fuel') = (.ret d, t)) (ctx : Ctx) :
    winClientRun conv ctx env (developCalls w w' beyond fuel fuel') [] [] =
      ⟨winOpenedOf d.first, [.ret (winOpenedOf d.first), .ret (winListedOf d.drives), .ret []], t⟩ := by
  have step : ∀ {α β : Type} (p : WAM α) (f : α → WAM β) (hist : Prog.Trace WAReq WARep) (b : β) (t : Prog.Trace WAReq WARep),
      OutT.run env hist (p >>= f) = (.ret b, t) →
      ∃ a u v, OutT.run env hist p = (.ret a, u) ∧ OutT.run env (hist ++ u) (f a) = (.ret b, v) ∧ t = u ++ v := by
    intro α β p f hist b t h
    rw [OutT.run_bind] at h
    rcases hr : OutT.run env hist p with ⟨o, u⟩
    rw [hr] at h
    cases o with
    | panic => simp at h
    | running => simp at h
    | ret a =>
      dsimp only at h
      rcases hs : OutT.run env (hist ++ u) (f a) with ⟨o, v⟩
      rw [hs] at h
      cases h
      exact ⟨a, u, v, rfl, hs, rfl⟩
  unfold developWindows at h
  obtain ⟨first, t₁, r1, h1, k1, e1⟩ := step _ _ _ _ _ h
  obtain ⟨drives, t₂, r2, h2, k2, e2⟩ := step _ _ _ _ _ k1
  obtain ⟨vols, t₃, r3, h3, k3, e3⟩ := step _ _ _ _ _ k2
  rw [OutT.run_ret] at k3
  cases k3
  clear h k1 k2
  subst e3 e2 e1
  rw [List.nil_append] at h2 h3
  let st₁ := (WinHeld.add [] first).held
  have c1 : OutT.run env [] (WinClientCall.prog conv ctx [] (.openPath w developPath)) = (.ret (WinHeld.add [] first), t₁) := by
    simp only [WinClientCall.prog]
    unfold developPath
    rw [OutT.run_bind_ret env _ h1]
    simp
  have c2 : OutT.run env t₁ (WinClientCall.prog conv ctx st₁ (.enumDrives w' fuel)) = (.ret (WinHeld.listed st₁ drives), t₂) := by
    simp only [WinClientCall.prog]
    rw [OutT.run_bind_ret env _ h2]
    simp
  have s2 : (WinHeld.listed st₁ drives).held = st₁ := by cases drives <;> rfl
  have c3 : OutT.run env (t₁ ++ t₂) (WinClientCall.prog conv ctx st₁ (.enumVolumes beyond fuel')) = (.ret { held := st₁ }, t₃) := by
    simp only [WinClientCall.prog]
    rw [OutT.run_bind_ret env _ h3]
    simp
  have s1 : (WinHeld.add [] first).held = winOpenedOf first := by cases first <;> rfl
  have q1 : (WinHeld.add [] first).drives = winOpenedOf first := by cases first <;> rfl
  have q2 : (WinHeld.listed st₁ drives).drives = winListedOf drives := by cases drives <;> rfl
  unfold developCalls
  simp only [winClientRun, WinHeld.afterCall, List.nil_append]
  simp only [c1]
  rw [show (WinHeld.add [] first).held = st₁ from rfl]
  simp only [c2, s2, c3, List.append_nil, q1, q2]
  rw [show st₁ = winOpenedOf first from s1]

/-- **C158.** However the tool ends, it only reads from drives (and changes the process's error mode). -/
theorem win_develop_reads_only (conv : Wide → Bytes) (w w' : WinRun) (beyond : Nat → Byte) (fuel fuel' : Nat)
    (env : Prog.Env WAReq WARep) (hist : Prog.Trace WAReq WARep) :
    ∀ y ∈ (OutT.run env hist (developWindows conv w w' beyond fuel fuel')).2, WinLooksOnly true y.1 := by
  refine OutT.asks_run ?_ env hist
  unfold developWindows
  refine OutT.asks_bind (win_looks _ (winOpenByPath_reads ..)) (fun _ => ?_)
  refine OutT.asks_bind (win_looks _ (winEnumDrives_reads ..)) (fun _ => ?_)
  refine OutT.asks_bind ?_ (fun _ => OutT.asks_ret _)
  refine OutT.asks_interp (A := fun q => WinReadsOnly q ∨ ∃ m, q = .setErrorMode m) _ _ ?_ (fun q hq => ?_)
  · unfold winEnumVolumes
    refine OutT.asks_bind (OutT.asks_ask (.inr ⟨1, rfl⟩)) (fun m => ?_)
    exact OutT.asks_defer (OutT.asks_mono (fun _ h => .inl h) (winSearchVolumes_reads ..))
      (OutT.asks_bind (OutT.asks_ask (.inr ⟨m.n, rfl⟩)) (fun _ => OutT.asks_ret _))
  · refine OutT.asks_bind (OutT.asks_ask ?_) (fun _ => OutT.asks_ret _)
    rcases hq with hq | hq
    · exact .inl hq
    · exact .inr ⟨rfl, hq⟩

theorem winCounts (os : List WinOpened) : winDriven os + winDriverless os = os.length := by
  unfold winDriven winDriverless
  induction os with
  | nil => rfl
  | cons o os ih =>
    rw [List.countP_cons, List.countP_cons, List.length_cons]
    cases o.handle.dh <;> simp <;> omega

/-- **C158.** When the tool returns, the error mode is what it was; device lists and searches are given back; and it has closed
nothing of what it opened: open are the drive it opened, if it could, every drive of the enumeration that no driver accepted,
and the second handle of every drive the miniport driver accepted. -/
theorem win_develop_leaves_open (conv : Wide → Bytes) (w w' : WinRun) (beyond : Nat → Byte) (fuel fuel' : Nat)
    (env : Prog.Env WAReq WARep) (hf : FreshHandles env) (d : WinDeveloped) (t : Prog.Trace WAReq WARep)
    (h : OutT.run env [] (developWindows conv w w' beyond fuel fuel') = (.ret d, t)) :
    (∀ m₀, TellsMode m₀ env → errorMode m₀ t = m₀) ∧
    (∀ x ∈ openRes t, ∃ h, x = .file h) ∧
    (openRes t).length = (winOpenedOf d.first).length + winDriverless (winListedOf d.drives) +
      winMiniports (winOpenedOf d.first) + winMiniports (winListedOf d.drives) := by
  have hc := win_develop_is_client conv w w' beyond fuel fuel' env d t h sampleCtx
  refine ⟨fun m₀ hm => ?_, ?_⟩
  · have := error_mode_restored conv sampleCtx m₀ env hm (developCalls w w' beyond fuel fuel') (by rw [hc]; simp)
    rwa [hc] at this
  · have := win_handle_census conv sampleCtx env hf (developCalls w w' beyond fuel fuel') (by
      rw [hc]
      intro x hx
      simp only [developCalls, List.zip_cons_cons, List.zip_nil_right, List.mem_cons, List.not_mem_nil, or_false] at hx
      rcases hx with rfl | rfl | rfl <;> trivial)
    rw [hc] at this
    refine ⟨this.1, ?_⟩
    have h2 := this.2
    have e1 := winCounts (winOpenedOf d.first)
    have hd : ∀ a b : List WinOpened, winDriverless (a ++ b) = winDriverless a + winDriverless b := fun a b => List.countP_append
    have hm : ∀ a b : List WinOpened, winMiniports (a ++ b) = winMiniports a + winMiniports b := fun a b => List.countP_append
    simp only [List.flatMap_cons, List.flatMap_nil, winReported, hd, hm, List.append_nil] at h2
    omega

theorem winCall_ask {β : Type} (env : Prog.Env WAReq WARep) (hist : Prog.Trace WAReq WARep) (q : WReq) (k : WRep → WinM β) :
    OutT.run env hist (OutT.interp winCall (OutT.ask q >>= k : WinM β)) =
      ((OutT.run env (hist ++ [(.sys q, env hist (.sys q))]) (OutT.interp winCall (k (env hist (.sys q)).sys))).1,
        (.sys q, env hist (.sys q)) ::
          (OutT.run env (hist ++ [(.sys q, env hist (.sys q))]) (OutT.interp winCall (k (env hist (.sys q)).sys))).2) := by
  have h : OutT.interp winCall (OutT.ask q >>= k : WinM β) = (OutT.ask (WAReq.sys q) >>= fun r => OutT.interp winCall (k r.sys) : WAM β) := rfl
  rw [h, OutT.run_ask_bind]

/-- **C158.** The tool needs no drive: where nothing can be opened or enumerated it returns with the three errors, after five
calls. -/
theorem win_develop_without_drives (conv : Wide → Bytes) (w w' : WinRun) (beyond : Nat → Byte) (fuel fuel' : Nat)
    (env : Prog.Env WAReq WARep) (e₁ e₂ e₃ : GoErr)
    (h1 : ∀ h, (env h (.sys (.openDevice developPath))).sys.err = some e₁)
    (h2 : ∀ h, (env h (.sys .setupClass)).sys.err = some e₂)
    (h3 : ∀ h, (env h (.sys .firstVolume)).sys.err = some e₃) :
    ∃ n t, OutT.run env [] (developWindows conv w w' beyond fuel fuel') =
        (.ret { first := .err e₁, drives := .err e₂, volumes := .err e₃ }, t) ∧
      t.map (·.1) = [WAReq.sys (.openDevice developPath), .sys .setupClass, .sys (.setErrorMode 1), .sys .firstVolume,
        .sys (.setErrorMode n)] := by
  have s1 : ∀ h, ∃ r, OutT.run env h (OutT.interp winCall (winOpenPath w developPath)) =
      (.ret (.err e₁), [(.sys (.openDevice developPath), r)]) := by
    intro h
    refine ⟨env h (.sys (.openDevice developPath)), ?_⟩
    unfold winOpenPath winOpenByPath winOpenDevice
    rw [if_neg (by decide +kernel), OutT.bind_assoc', winCall_ask, h1 h]
    rfl
  have s2 : ∀ h, ∃ r, OutT.run env h (OutT.interp winCall (winEnumDrives w' (winOpeners w'.base w'.base') conv fuel)) =
      (.ret (.err e₂), [(.sys .setupClass, r)]) := by
    intro h
    refine ⟨env h (.sys .setupClass), ?_⟩
    unfold winEnumDrives
    rw [winCall_ask, h2 h]
    rfl
  have s3 : ∀ h, ∃ n r r' r'', OutT.run env h (OutT.interp winCall (winEnumVolumes conv beyond fuel')) =
      (.ret (.err e₃), [(.sys (.setErrorMode 1), r), (.sys .firstVolume, r'), (.sys (.setErrorMode n), r'')]) := by
    intro h
    obtain ⟨a, ha⟩ : ∃ a, a = env h (.sys (.setErrorMode 1)) := ⟨_, rfl⟩
    obtain ⟨b, hb⟩ : ∃ b, b = env (h ++ [(.sys (.setErrorMode 1), a)]) (.sys .firstVolume) := ⟨_, rfl⟩
    refine ⟨a.sys.n, a, b, env (h ++ [(.sys (.setErrorMode 1), a)] ++ [(.sys .firstVolume, b)]) (.sys (.setErrorMode a.sys.n)), ?_⟩
    unfold winEnumVolumes
    rw [winCall_ask, ← ha]
    have hd : OutT.defer (winSearchVolumes conv beyond fuel') (OutT.call (.setErrorMode a.sys.n)) =
        ((OutT.ask .firstVolume : WinM WRep) >>= fun f => OutT.defer (match f.err with
          | some e => OutT.ret (.err e)
          | none => do
            let vs ← OutT.defer
              (winVolumeLoop conv beyond f.handle fuel' (wtext (storeWide (List.replicate 320 0#16) f.wide)) {})
              (OutT.call (.closeFind f.handle))
            OutT.ret (.ok vs)) (OutT.call (.setErrorMode a.sys.n))) := rfl
    rw [hd, winCall_ask, ← hb, hb, h3, ← hb]
    rfl
  obtain ⟨r, a1⟩ := s1 []
  obtain ⟨r', a2⟩ := s2 ([] ++ [(.sys (.openDevice developPath), r)])
  obtain ⟨n, b1, b2, b3, a3⟩ := s3 ([] ++ [(.sys (.openDevice developPath), r)] ++ [(.sys .setupClass, r')])
  refine ⟨n, [(.sys (.openDevice developPath), r)] ++ ([(.sys .setupClass, r')] ++ ([(.sys (.setErrorMode 1), b1),
    (.sys .firstVolume, b2), (.sys (.setErrorMode n), b3)] ++ [])), ?_, ?_⟩
  · unfold developWindows
    unfold developPath at a1 a2 a3
    rw [OutT.run_bind_ret env _ a1, OutT.run_bind_ret env _ a2, OutT.run_bind_ret env _ a3, OutT.run_ret]
    rfl
  · rfl

set_option maxRecDepth 20000 in
/-- The sample system of C143: the drive opened stays open, and the drive of the enumeration that no driver accepts. -/
example : (match OutT.run sampleWinClient [] (developWindows sampleConv sampleRun sampleRun (fun _ => 0) 5 5) with
    | (.ret d, t) => decide ((winOpenedOf d.first).length = 1 ∧ (winListedOf d.drives).length = 2 ∧ (openRes t).length = 2)
    | _ => false) = true ∧ FreshHandles sampleWinClient := by
  refine ⟨?_, sampleWinClient_fresh⟩
  decide +kernel

/-- A system without drives. -/
example : ∃ env : Prog.Env WAReq WARep, FreshHandles env ∧ TellsMode 0 env ∧
    ∀ h q, (env h (.sys q)).sys.err = some (.errno 2) :=
  ⟨fun h _ => { sys := { err := some (.errno 2), n := errorMode 0 h } },
    (fun h q x hx => by unfold winGives at hx; simp at hx), (fun t m => rfl), fun _ _ => rfl⟩

end Dparm
