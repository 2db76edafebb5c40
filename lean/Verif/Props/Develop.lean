import Verif.Model.Develop
import Verif.Props.Looking
import Verif.Props.TperLinux
/-!
# The development tool on Linux (C156)
-/
namespace Dparm
open Spec

theorem does_logPage {o : Opened} (h : Made o) (nsid logId : BitVec 32) (rae : Bool) (size : Nat) :
    Does LooksOnly (o.logPage nsid logId rae size) := by
  refine does_method h (gentle_logPage _ nsid logId rae size).2 (fun i fd hd => ?_)
  obtain ⟨d, hd, hi, ha, hn⟩ := hd
  unfold Handle.nvmeGetLogPage
  rw [hd]
  dsimp only
  rw [hn]
  match i, hi with
  | 0, _ =>
    rw [if_pos (by rfl), onLinux_drvNv]
    exact does_asks (OutT.asks_bind (logPage_looks ..) (fun _ => OutT.asks_ret _))
  | 1, _ => exact does_asks (OutT.asks_ret _)

/-- **C156.** `unsafe.Sizeof` of the SMART log page record is 516, although its fields have 512 bytes: the padding of Go. -/
theorem smart_sizes : goSizeof smartFields = 516 ∧ smartFields.sum = 512 := by decide +kernel

/-- The stages of the tool, one after the other. -/
theorem develop_stages (order : List (Bytes × Bytes) → List (Bytes × Bytes)) (m : Mounts) (env : Prog.Env AReq ARep) (d : Developed)
    (t : Prog.Trace AReq ARep) (h : OutT.run env [] (developLinux order m) = (.ret d, t)) :
    ∃ t₁ t₂ t₃ t₄ t₅, t = t₁ ++ (t₂ ++ (t₃ ++ (t₄ ++ t₅))) ∧
      OutT.run env [] (OutT.interp sysCall (onLinux (openByPath 2 order (ascii "/dev/sda")))) = (.ret d.first, t₁) ∧
      OutT.run env t₁ (OutT.interp sysCall (onLinux (enumDrives 2 order))) = (.ret d.drives, t₂) ∧
      OutT.run env (t₁ ++ t₂) (OutT.interp sysCall (onLinux (enumVolumes m))) = (.ret d.volumes, t₃) ∧
      OutT.run env (t₁ ++ t₂ ++ t₃) (OutT.interp sysCall (onLinux (openByPath 2 order (ascii "/dev/nvme0n1")))) = (.ret (.ok d.drive), t₄) ∧
      OutT.run env (t₁ ++ t₂ ++ t₃ ++ t₄) (OutT.interp sysCall (d.drive.logPage 0xffffffff 2 false 516)) = (.ret d.page, t₅) := by
  have step : ∀ {α β : Type} (p : AM α) (f : α → AM β) (hist : Prog.Trace AReq ARep) (b : β) (t : Prog.Trace AReq ARep),
      OutT.run env hist (p >>= f) = (.ret b, t) →
      ∃ a u v, OutT.run env hist p = (.ret a, u) ∧ OutT.run env (hist ++ u) (f a) = (.ret b, v) ∧ t = u ++ v := by
    intro α β p f hist b t h
    rw [OutT.run_bind] at h
    rcases hr : OutT.run env hist p with ⟨o, u⟩
    rw [hr] at h
    cases o with
    | panic => simp at h
    | running => simp at h
    | ret a =>
      dsimp only at h
      rcases hs : OutT.run env (hist ++ u) (f a) with ⟨o, v⟩
      rw [hs] at h
      cases h
      exact ⟨a, u, v, rfl, hs, rfl⟩
  unfold developLinux at h
  obtain ⟨first, t₁, r1, h1, k1, e1⟩ := step _ _ _ _ _ h
  obtain ⟨drives, t₂, r2, h2, k2, e2⟩ := step _ _ _ _ _ k1
  obtain ⟨vols, t₃, r3, h3, k3, e3⟩ := step _ _ _ _ _ k2
  obtain ⟨second, t₄, r4, h4, k4, e4⟩ := step _ _ _ _ _ k3
  clear h k1 k2 k3
  subst e4 e3 e2 e1
  rw [List.nil_append] at h2 h3 h4 k4
  cases second with
  | err e => cases k4
  | panic => cases k4
  | ok o =>
    dsimp only at k4
    obtain ⟨page, t₅, r, h5, k5, e5⟩ := step _ _ _ _ _ k4
    rw [OutT.run_ret] at k5
    cases k5
    subst e5
    rw [List.append_nil]
    refine ⟨t₁, t₂, t₃, t₄, t₅, rfl, h1, h2, h3, h4, ?_⟩
    rw [← h5, smart_sizes.1]

/-- **C156.** The tool only reads from drives, however it ends. -/
theorem develop_reads_only (order : List (Bytes × Bytes) → List (Bytes × Bytes)) (m : Mounts) (env : Prog.Env AReq ARep)
    (hist : Prog.Trace AReq ARep) :
    ∀ y ∈ (OutT.run env hist (developLinux order m)).2, ∃ q, y.1 = AReq.sys q ∧ LooksOnly q := by
  have hopen : ∀ path, Does LooksOnly (onLinux (openByPath 2 order path)) := fun path =>
    does_mono (fun _ h => .inl h) (does_within (openByPath_within order path))
  show OnlySys LooksOnly _
  unfold developLinux
  refine does_sys (hopen _) _ (fun _ env hist => ?_) env hist
  refine does_sys (does_mono (fun _ h => .inl h) (does_within (enumDrives_within order))) _ (fun _ env hist => ?_) env hist
  refine does_sys (does_mono (fun _ h => .inl h) (does_within (OutT.within_of_asks (OutT.asks_mono ?_ (enumVolumes_asks m))))) _
    (fun _ env hist => ?_) env hist
  · intro q hq
    cases q <;> first | trivial | exact absurd hq id
  · have h1 : OnlySys LooksOnly (OutT.run env hist (OutT.interp sysCall (onLinux (openByPath 2 order (ascii "/dev/nvme0n1"))))).2 := by
      obtain ⟨env', -, h⟩ := sysCall_run (onLinux (openByPath 2 order (ascii "/dev/nvme0n1"))) env hist
      intro x hx
      obtain ⟨y, hy, e⟩ := h.mem x hx
      exact ⟨_, e, hopen _ env' [] y hy⟩
    have hm := ends_sys (A := fun r : Res Opened => ∀ o, r = .ok o → Made o) (p := onLinux (openByPath 2 order (ascii "/dev/nvme0n1")))
      (fun env hist r hr o ho => by subst ho; exact openByPath_made order _ env hist o hr) env hist
    rw [OutT.run_bind]
    rcases hr : OutT.run env hist (OutT.interp sysCall (onLinux (openByPath 2 order (ascii "/dev/nvme0n1")))) with ⟨o, t⟩
    rw [hr] at h1 hm
    cases o with
    | panic => exact h1
    | running => exact h1
    | ret r =>
      intro x hx
      rcases List.mem_append.1 hx with hx | hx
      · exact h1 x hx
      · cases r with
        | err e => cases hx
        | panic => cases hx
        | ok o => exact does_sys (does_logPage (hm _ rfl o rfl) _ _ _ _) _ (fun _ _ _ => onlySys_ret _ _ _ _) env _ x hx

/-- **C156.** If `/dev/nvme0n1` cannot be opened, the tool crashes: it does not end by returning. -/
theorem develop_needs_nvme (order : List (Bytes × Bytes) → List (Bytes × Bytes)) (m : Mounts) (env : Prog.Env AReq ARep)
    (hno : ∀ hist, (env hist (.sys (.os (.openDev (ascii "/dev/nvme0n1"))))).sys.os.err ≠ none) :
    ∀ d, (OutT.run env [] (developLinux order m)).1 ≠ .ret d := by
  intro d hd
  rcases hr : OutT.run env [] (developLinux order m) with ⟨o, t⟩
  rw [hr] at hd
  dsimp only at hd
  subst hd
  obtain ⟨t₁, t₂, t₃, t₄, t₅, -, -, -, -, h4, -⟩ := develop_stages order m env d t hr
  obtain ⟨k, hk, hke⟩ := linuxOpen_unfold order (ascii "/dev/nvme0n1")
  have hk' : onLinux (openByPath 2 order (ascii "/dev/nvme0n1")) = _ := hk
  rw [hk', OutT.interp_bind] at h4
  have hs : OutT.interp sysCall (OutT.ask (LReq.os (.openDev (ascii "/dev/nvme0n1")))) =
      (OutT.ask (AReq.sys (.os (.openDev (ascii "/dev/nvme0n1")))) >>= fun r => OutT.ret r.sys) := by
    rfl
  rw [hs, OutT.bind_assoc', OutT.run_ask_bind] at h4
  obtain ⟨a, ha⟩ : ∃ a, a = env (t₁ ++ t₂ ++ t₃) (AReq.sys (.os (.openDev (ascii "/dev/nvme0n1")))) := ⟨_, rfl⟩
  have he := hno (t₁ ++ t₂ ++ t₃)
  rw [← ha] at h4 he
  cases hh : a.sys.os.err with
  | none => exact he hh
  | some e =>
    have h8 : (OutT.ret a.sys >>= fun x => OutT.interp sysCall (k x) : AM (Res Opened)) = OutT.interp sysCall (k a.sys) := rfl
    rw [h8, hke _ e hh] at h4
    cases h4

theorem logReads_one {fd : Nat} {cmd : KNvme → Prop} {b out : Bytes} {u : Prog.Trace LReq LRep} (h : LogReads fd cmd b u out)
    (hne : u ≠ []) (hl : u.length ≤ 1) :
    ∃ rec r, u = [(.nvme fd 0xC0484E41 rec (some b), r)] ∧ cmd rec ∧ out = delivered b r.nv.data := by
  cases h with
  | nil => exact absurd rfl hne
  | @cons _ _ k r t is rest =>
    have : t = [] := by
      cases t with
      | nil => rfl
      | cons x t => simp at hl
    subst this
    cases rest
    exact ⟨k, r, rfl, is, rfl⟩

theorem sysWire_two {x y : LReq × LRep} {t : Prog.Trace AReq ARep} (h : SysWire [x, y] t) :
    ∃ a b, t = [(.sys x.1, a), (.sys y.1, b)] ∧ b.sys = y.2 := by
  cases h with
  | cons h =>
    cases h with
    | cons h =>
      cases h
      exact ⟨_, _, rfl, rfl⟩

/-- **C156.** When it returns and the NVMe driver has the drive, the last thing it did was one Get Log Page for the SMART log
of all namespaces, of 129 dwords where the log has 128, into a buffer of 516 bytes, which it shows. -/
theorem develop_log_page (order : List (Bytes × Bytes) → List (Bytes × Bytes)) (m : Mounts) (env : Prog.Env AReq ARep) (d : Developed)
    (t : Prog.Trace AReq ARep) (h : OutT.run env [] (developLinux order m) = (.ret d, t)) :
    (∀ fd, NvmeDrive d.drive fd → ∃ u rec a page, t = u ++ [(AReq.sys (.nvme fd 0xC0484E41 rec (some (zeros 516))), a)] ∧
      IsGetLogPage 0xffffffff 2 false 516 rec ∧ rec.cdw10.toNat / 65536 + 1 = 129 ∧ rec.cdw11 = 0 ∧
      d.page = (some page, nvmeVerdict a.sys.nv) ∧ page = delivered (zeros 516) a.sys.nv.data) ∧
    ((∃ fd, ScsiDrive d.drive fd) ∨ NoDriver d.drive → d.page = (none, some .notSupportThisDriver)) ∧
    ((∃ fd, NvmeDrive d.drive fd) ∨ (∃ fd, ScsiDrive d.drive fd) ∨ NoDriver d.drive) := by
  obtain ⟨t₁, t₂, t₃, t₄, t₅, rfl, -, -, -, h4, h5⟩ := develop_stages order m env d t h
  obtain ⟨env', h6, h7⟩ := sysCall_run (d.drive.logPage 0xffffffff 2 false 516) env (t₁ ++ t₂ ++ t₃ ++ t₄)
  rw [h5] at h6 h7
  dsimp only at h6 h7
  obtain ⟨g1, g2⟩ := log_page_command d.drive 0xffffffff 2 false 516 env' []
  refine ⟨fun fd hd => ?_, fun hs => ?_, ?_⟩
  · obtain ⟨pl, u, out, e, k1, k2, k3, k4, k5, k6, k7, k8⟩ := g2 fd hd (by decide) (by decide) (by decide)
    rw [k1] at h6 h7
    have h9 : d.page = (some out, e) := Out.ret.inj h6
    obtain ⟨rec, r, rfl, is, ho⟩ := logReads_one k2 k4 (by have : (516 + 4095) / 4096 = 1 := by decide
                                                           omega)
    obtain ⟨a0, a, rfl, hr⟩ := sysWire_two h7
    dsimp only at hr
    subst hr
    have hd := is.dwords
    have h10 := rec.cdw10.isLt
    have h11 : rec.cdw11.toNat = 0 := by have := is.noLsi; omega
    refine ⟨t₁ ++ (t₂ ++ (t₃ ++ (t₄ ++ [(AReq.sys .place, a0)]))), rec, a, out, by simp, is, by omega, ?_, ?_, ho⟩
    · exact BitVec.eq_of_toNat_eq h11
    · rw [h9, k8 (.nvme fd 0xC0484E41 rec (some (zeros 516)), a.sys) (by simp)]
  · rw [g1 hs] at h6
    exact Out.ret.inj h6
  · obtain ⟨env'', e1, -⟩ := sysCall_run (onLinux (openByPath 2 order (ascii "/dev/nvme0n1"))) env (t₁ ++ t₂ ++ t₃)
    rw [h4] at e1
    rcases linux_open_kinds order (ascii "/dev/nvme0n1") env'' [] d.drive e1.symm with h | h | h
    · exact .inl ⟨_, h⟩
    · exact .inr (.inl ⟨_, h⟩)
    · exact .inr (.inr h)

/-- What the first opening gave. -/
def openedOf : Res Opened → List Opened
  | .ok o => [o]
  | _ => []

/-- What the enumeration gave. -/
def listedOf : Res (List Opened) → List Opened
  | .ok os => os
  | _ => []

/-- Up to its end the tool is a client that makes these calls: nothing is closed. -/
theorem develop_is_client (order : List (Bytes × Bytes) → List (Bytes × Bytes)) (m : Mounts) (env : Prog.Env AReq ARep) (d : Developed)
    (t : Prog.Trace AReq ARep) (h : OutT.run env [] (developLinux order m) = (.ret d, t)) (ctx : Ctx) :
    ∃ k t₁ t₂ t₃ t₄ t₅,
      clientRun order ctx env [.openPath (ascii "/dev/sda"), .enumDrives, .enumVolumes m, .openPath (ascii "/dev/nvme0n1"),
        .logPage k 0xffffffff 2 false 516] [] [] =
        ⟨openedOf d.first ++ [d.drive],
          [.ret (openedOf d.first), .ret (listedOf d.drives), .ret [], .ret [d.drive], .ret []], t⟩ ∧
      clientSteps order ctx env [.openPath (ascii "/dev/sda"), .enumDrives, .enumVolumes m, .openPath (ascii "/dev/nvme0n1"),
        .logPage k 0xffffffff 2 false 516] [] [] = [t₁, t₂, t₃, t₄, t₅] ∧ t = t₁ ++ t₂ ++ t₃ ++ t₄ ++ t₅ ∧
      OutT.run env (t₁ ++ t₂) (OutT.interp sysCall (onLinux (enumVolumes m))) = (.ret d.volumes, t₃) := by
  obtain ⟨t₁, t₂, t₃, t₄, t₅, rfl, h1, h2, h3, h4, h5⟩ := develop_stages order m env d t h
  let st₁ := (Held.add [] d.first).held
  have hl : (st₁ ++ [d.drive])[st₁.length]? = some d.drive := by simp
  have c1 : OutT.run env [] (LinuxCall.prog order ctx [] (.openPath (ascii "/dev/sda"))) = (.ret (Held.add [] d.first), t₁) := by
    simp only [LinuxCall.prog]
    rw [OutT.run_bind_ret env _ h1]
    simp
  have c2 : OutT.run env t₁ (LinuxCall.prog order ctx st₁ .enumDrives) = (.ret (Held.listed st₁ d.drives), t₂) := by
    simp only [LinuxCall.prog]
    rw [OutT.run_bind_ret env _ h2]
    simp
  have s2 : (Held.listed st₁ d.drives).held = st₁ := by cases d.drives <;> rfl
  have c3 : OutT.run env (t₁ ++ t₂) (LinuxCall.prog order ctx st₁ (.enumVolumes m)) = (.ret { held := st₁ }, t₃) := by
    simp only [LinuxCall.prog]
    rw [OutT.run_bind_ret env _ h3]
    simp
  have c4 : OutT.run env (t₁ ++ t₂ ++ t₃) (LinuxCall.prog order ctx st₁ (.openPath (ascii "/dev/nvme0n1"))) =
      (.ret { held := st₁ ++ [d.drive], drives := [d.drive] }, t₄) := by
    simp only [LinuxCall.prog]
    rw [OutT.run_bind_ret env _ h4]
    simp [Held.add]
  have c5 : OutT.run env (t₁ ++ t₂ ++ t₃ ++ t₄) (LinuxCall.prog order ctx (st₁ ++ [d.drive]) (.logPage st₁.length 0xffffffff 2 false 516)) =
      (.ret { held := st₁ ++ [d.drive] }, t₅) := by
    simp only [LinuxCall.prog]
    unfold Held.query Held.on
    rw [hl]
    dsimp only
    have h5' : OutT.run env (t₁ ++ t₂ ++ t₃ ++ t₄) (OutT.interp sysCall (d.drive.method (fun h => h.nvmeGetLogPage 0xffffffff 2 false 516))) =
      (.ret d.page, t₅) := h5
    rw [OutT.run_bind_ret env _ h5']
    simp
  have s1 : (Held.add [] d.first).held = openedOf d.first := by cases d.first <;> rfl
  have r1 : (Held.add [] d.first).drives = openedOf d.first := by cases d.first <;> rfl
  have r2 : (Held.listed st₁ d.drives).drives = listedOf d.drives := by cases d.drives <;> rfl
  refine ⟨st₁.length, t₁, t₂, t₃, t₄, t₅, ?_, ?_, by simp, h3⟩
  · simp only [clientRun, Held.afterCall, List.nil_append]
    simp only [c1]
    rw [show (Held.add [] d.first).held = st₁ from rfl]
    simp only [c2, s2, c3, c4, c5, List.append_nil, r1, r2]
    rw [show st₁ = openedOf d.first from s1]
  · simp only [clientSteps, Held.afterCall, List.nil_append]
    simp only [c1]
    rw [show (Held.add [] d.first).held = st₁ from rfl]
    simp only [c2, s2, c3, c4, c5]

/-- **C156.** The tool closes nothing: when it returns, open are `/dev/sda` if it could be opened, `/dev/nvme0n1`, a
descriptor for every drive of the enumeration that no driver accepted, and one for every device that `EnumVolumes` opened. -/
theorem develop_leaves_open (order : List (Bytes × Bytes) → List (Bytes × Bytes)) (m : Mounts) (env : Prog.Env AReq ARep)
    (hf : FreshFds env) (d : Developed) (t : Prog.Trace AReq ARep) (h : OutT.run env [] (developLinux order m) = (.ret d, t)) :
    ∃ before vols after, t = before ++ vols ++ after ∧
      OutT.run env before (OutT.interp sysCall (onLinux (enumVolumes m))) = (.ret d.volumes, vols) ∧
      (openFds t).length = (openedOf d.first).length + 1 + driverless (listedOf d.drives) + opensIn vols := by
  obtain ⟨k, t₁, t₂, t₃, t₄, t₅, h1, h2, h3, h4⟩ := develop_is_client order m env d t h sampleCtx
  have hc := (descriptor_census order _ env hf _ (by
    rw [h1]
    intro x hx
    simp only [List.zip_cons_cons, List.zip_nil_right, List.mem_cons, List.not_mem_nil, or_false] at hx
    rcases hx with rfl | rfl | rfl | rfl | rfl <;> trivial)).1
  rw [h1, h2] at hc
  refine ⟨t₁ ++ t₂, t₃, t₄ ++ t₅, by rw [h3]; simp, h4, ?_⟩
  rw [hc]
  have hcount : ∀ os : List Opened, Spec.driven os + driverless os = os.length := by
    intro os
    unfold Spec.driven driverless
    induction os with
    | nil => rfl
    | cons o os ih =>
      rw [List.countP_cons, List.countP_cons, List.length_cons]
      cases o.handle.dh <;> simp <;> omega
  have hd : ∀ a b : List Opened, Spec.driven (a ++ b) = Spec.driven a + Spec.driven b := fun a b => List.countP_append
  have hd' : ∀ a b : List Opened, driverless (a ++ b) = driverless a + driverless b := fun a b => List.countP_append
  have e1 := hcount (openedOf d.first)
  have e2 := hcount [d.drive]
  simp only [List.flatMap_cons, List.flatMap_nil, reported, List.zip_cons_cons, List.zip_nil_right, List.map_cons, List.map_nil,
    volumeOpens, List.sum_cons, List.sum_nil, hd, hd', List.append_nil, List.nil_append, List.length_singleton] at e2 ⊢
  omega

/-- **C156.** The tool returns if the stages before the NVMe drive do and that drive can be opened. -/
theorem develop_returns (order : List (Bytes × Bytes) → List (Bytes × Bytes)) (m : Mounts) (env : Prog.Env AReq ARep)
    (h1 : ∀ h, ∃ r, (OutT.run env h (OutT.interp sysCall (onLinux (openByPath 2 order (ascii "/dev/sda"))))).1 = .ret r)
    (h2 : ∀ h, ∃ r, (OutT.run env h (OutT.interp sysCall (onLinux (enumDrives 2 order)))).1 = .ret r)
    (h3 : ∀ h, ∃ r, (OutT.run env h (OutT.interp sysCall (onLinux (enumVolumes m)))).1 = .ret r)
    (P : Opened → Prop) (h4 : ∀ h, ∃ o,
      (OutT.run env h (OutT.interp sysCall (onLinux (openByPath 2 order (ascii "/dev/nvme0n1"))))).1 = .ret (.ok o) ∧ P o) :
    ∃ d t, OutT.run env [] (developLinux order m) = (.ret d, t) ∧ P d.drive := by
  have split : ∀ {α : Type} (p : AM α) (h : Prog.Trace AReq ARep) (a : α), (OutT.run env h p).1 = .ret a →
      ∃ t, OutT.run env h p = (.ret a, t) := fun p h a e => ⟨_, Prod.ext e rfl⟩
  obtain ⟨r1, e⟩ := h1 []
  obtain ⟨t₁, e1⟩ := split _ _ _ e
  obtain ⟨r2, e⟩ := h2 ([] ++ t₁)
  obtain ⟨t₂, e2⟩ := split _ _ _ e
  obtain ⟨r3, e⟩ := h3 ([] ++ t₁ ++ t₂)
  obtain ⟨t₃, e3⟩ := split _ _ _ e
  obtain ⟨o, e, ho⟩ := h4 ([] ++ t₁ ++ t₂ ++ t₃)
  obtain ⟨t₄, e4⟩ := split _ _ _ e
  have hret : ∃ r, (OutT.run env ([] ++ t₁ ++ t₂ ++ t₃ ++ t₄) (OutT.interp sysCall (o.logPage 0xffffffff 2 false (goSizeof smartFields)))).1 = .ret r := by
    rw [smart_sizes.1]
    obtain ⟨env', h6, -⟩ := sysCall_run (o.logPage 0xffffffff 2 false 516) env ([] ++ t₁ ++ t₂ ++ t₃ ++ t₄)
    obtain ⟨g1, g2⟩ := log_page_command o 0xffffffff 2 false 516 env' []
    rw [h6]
    obtain ⟨env'', k1, -⟩ := sysCall_run (onLinux (openByPath 2 order (ascii "/dev/nvme0n1"))) env ([] ++ t₁ ++ t₂ ++ t₃)
    rw [e] at k1
    rcases linux_open_kinds order (ascii "/dev/nvme0n1") env'' [] o k1.symm with h | h | h
    · obtain ⟨pl, u, out, er, k1, -⟩ := g2 _ h (by decide) (by decide) (by decide)
      exact ⟨_, by rw [k1]⟩
    · exact ⟨_, by rw [g1 (.inl ⟨_, h⟩)]⟩
    · exact ⟨_, by rw [g1 (.inr h)]⟩
  obtain ⟨pg, e⟩ := hret
  obtain ⟨t₅, e5⟩ := split _ _ _ e
  refine ⟨{ first := r1, drives := r2, volumes := r3, drive := o, page := pg }, t₁ ++ (t₂ ++ (t₃ ++ (t₄ ++ (t₅ ++ [])))), ?_, ho⟩
  unfold developLinux
  rw [OutT.run_bind_ret env _ e1, OutT.run_bind_ret env _ e2, OutT.run_bind_ret env _ e3, OutT.run_bind_ret env _ e4]
  dsimp only
  rw [OutT.run_bind_ret env _ e5, OutT.run_ret]

/-- With the conforming NVMe drive of C130, no readable mount table and an empty `/sys/block`, the tool returns, with a drive
of the NVMe driver. -/
example : ∃ d t, OutT.run (idealNvme 3 shippedDrive ownedState) [] (developLinux id { lines := [], endErr := none, openErr := some (.errno 2) }) =
    (.ret d, t) ∧ NvmeDrive d.drive 3 := by
  have hc := idealNvme_conforming 3 shippedDrive (by decide) (by decide) ownedState rfl rfl
  have ho : ∀ path h, ∃ o, (OutT.run (idealNvme 3 shippedDrive ownedState) h (OutT.interp sysCall (onLinux (openByPath 2 id path)))).1
      = .ret (.ok o) ∧ NvmeDrive o 3 := by
    intro path h
    obtain ⟨o, h1, h2⟩ := open_succeeds_nvme hc path (idealNvme_node _ _ _ _) id h
    refine ⟨o, h1, ?_⟩
    obtain ⟨env', k1, -⟩ := sysCall_run (linuxOpenByPath id path) (idealNvme 3 shippedDrive ownedState) h
    rw [h1] at k1
    rcases linux_open_kinds id path env' [] o k1.symm with ⟨k, k'⟩ | ⟨k, -⟩ | ⟨k, -⟩
    · exact ⟨h2, k'⟩
    · rw [h2] at k; cases k
    · rw [h2] at k; cases k
  refine develop_returns id _ _ (fun h => ?_) (fun h => ⟨.ok [], rfl⟩) (fun h => ⟨_, rfl⟩) (fun o => NvmeDrive o 3) (ho _)
  obtain ⟨o, h1, -⟩ := ho (ascii "/dev/sda") h
  exact ⟨_, h1⟩

/-- The system of C142 where every node can be opened, with two mounted partitions: the tool returns, having found that the
second drive is not an NVMe drive, and four descriptors stay open. -/
example : (match (OutT.run clientOpens [] (developLinux id
      (mountsOf (ascii "/dev/nvme0n1p1 / ext4 rw\nproc /proc proc rw\n/dev/nvme0n1p2 /home ext4 rw\n") none))) with
    | (.ret d, t) => decide (d.page = (none, some .notSupportThisDriver)) && (openFds t).length == 4 &&
        (openedOf d.first).length == 1
    | _ => false) = true ∧ FreshFds clientOpens := by
  refine ⟨?_, sampleOpens_fresh⟩
  decide +kernel

/-- The system of C140 has no `/dev/nvme0n1`. -/
example : (∀ hist, (sampleClient hist (.sys (.os (.openDev (ascii "/dev/nvme0n1"))))).sys.os.err ≠ none) ∧
    (match (OutT.run sampleClient [] (developLinux id (mountsOf [] none))).1 with | .panic => true | _ => false) = true := by
  refine ⟨?_, ?_⟩
  · intro hist
    have : ascii "/dev/nvme0n1" ≠ ascii "/dev/sda" := by decide +kernel
    unfold sampleClient
    dsimp only
    rw [if_neg this]
    simp
  · decide +kernel

end Dparm
