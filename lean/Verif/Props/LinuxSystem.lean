import Verif.Lemmas.LinuxSystem
import Verif.Props.Identity
/-!
# The whole program on a Linux system (C116, C117, C118)
-/
namespace Dparm
open Spec

/-! ## Helpers -/

/-- Requests of the factory and the system calls they made. -/
inductive Stepped : Prog.Trace FReq FRep → Prog.Trace LReq LRep → Prop
  | nil : Stepped [] []
  | cons {q : FReq} {r : FRep} {c : Prog.Trace LReq LRep} {T t} (f : StepFacts q r c) (h : Stepped T t) :
      Stepped ((q, r) :: T) (c ++ t)

theorem stepped_of_chunks {env : Prog.Env LReq LRep} {T : Prog.Trace FReq FRep} {t : Prog.Trace LReq LRep}
    (h : OutT.Chunks linuxStep env T t) (hT : ∀ x ∈ T, FOk x.1) : Stepped T t := by
  induction h with
  | nil => exact .nil
  | @cons q r h c T t hc ht ih =>
    obtain ⟨r', c', h1, h2⟩ := step_facts q (hT _ (List.mem_cons_self ..)) env h
    rw [hc] at h1
    cases h1
    exact .cons h2 (ih (fun x hx => hT x (List.mem_cons_of_mem _ hx)))

theorem Stepped.reads {T : Prog.Trace FReq FRep} {t : Prog.Trace LReq LRep} (h : Stepped T t) : ∀ x ∈ t, ReadsOnly x.1 := by
  induction h with
  | nil => intro x hx; cases hx
  | cons f _ ih =>
    intro x hx
    rcases List.mem_append.1 hx with hx | hx
    · exact f.reads x hx
    · exact ih x hx

theorem Stepped.closed {T : Prog.Trace FReq FRep} {t : Prog.Trace LReq LRep} (h : Stepped T t) :
    fdsClosed t = T.flatMap (fun x => closesOf x.1) := by
  induction h with
  | nil => rfl
  | cons f _ ih =>
    unfold fdsClosed at *
    rw [List.filterMap_append, ih, List.flatMap_cons]
    exact congrArg (· ++ _) f.closed

theorem Stepped.opened {T : Prog.Trace FReq FRep} {t : Prog.Trace LReq LRep} (h : Stepped T t) : fdsOpened t = opens T := by
  induction h with
  | nil => rfl
  | @cons q r c T t f _ ih =>
    have ho : opens ((q, r) :: T) = opensOf q r ++ opens T := by cases q <;> rfl
    rw [ho, ← ih, ← f.opened.1]
    unfold fdsOpened
    rw [List.filterMap_append]

theorem Stepped.stated {T : Prog.Trace FReq FRep} {t : Prog.Trace LReq LRep} (h : Stepped T t) : nodesStated t = stats T := by
  induction h with
  | nil => rfl
  | @cons q r c T t f _ ih =>
    have ho : stats ((q, r) :: T) = statsOf q r ++ stats T := by cases q <;> rfl
    rw [ho, ← ih, ← f.opened.2]
    unfold nodesStated
    rw [List.filterMap_append]

theorem ownCalls_opens (t : Prog.Trace LReq LRep) : opens (ownCalls t) = fdsOpened t := by
  unfold opens ownCalls fdsOpened
  rw [List.filterMap_filterMap]
  congr 1
  funext x
  obtain ⟨q, r⟩ := x
  cases q with
  | os q => cases q <;> rfl
  | _ => rfl

theorem ownCalls_stats (t : Prog.Trace LReq LRep) : stats (ownCalls t) = nodesStated t := by
  unfold stats ownCalls nodesStated
  rw [List.filterMap_filterMap]
  congr 1
  funext x
  obtain ⟨q, r⟩ := x
  cases q with
  | os q => cases q <;> rfl
  | _ => rfl

theorem enumerated_congr {names : List Bytes} {os : List Opened} {T T' : Prog.Trace FReq FRep} (h : Enumerated names os T)
    (ho : opens T' = opens T) (hs : stats T' = stats T) : Enumerated names os T' := by
  obtain ⟨a, b, c, d⟩ := h
  refine ⟨?_, ?_, ?_, ?_⟩
  · rw [hs]; exact a
  · rw [ho, hs]; exact b
  · rw [ho]; exact c
  · rw [ho]; exact d

/-- The descriptors of the drives that have a driver. -/
def driven (l : List (Opened × Bytes × FRep)) : List Nat :=
  l.filterMap (fun p => if p.1.handle.dh.isSome then some p.2.2.fd else none)

theorem driven_eq : ∀ (os : List Opened) (l : List (Bytes × FRep)), os.length = l.length → (∀ o ∈ os, o.Consistent) →
    (∀ p ∈ os.zip l, ∀ s, p.1.source = some s → s.2 = p.2.2.fd) →
    (os.filterMap (·.source)).map (·.2) = driven (os.zip l) := by
  intro os
  induction os with
  | nil => intro l _ _ _; rfl
  | cons o os ih =>
    intro l hl hc hs
    cases l with
    | nil => simp at hl
    | cons x l =>
      have := ih l (by simpa using hl) (fun o ho => hc o (List.mem_cons_of_mem _ ho))
        (fun p hp => hs p (List.mem_cons_of_mem _ hp))
      have hco : o.handle.dh.isSome = o.source.isSome := hc o (by simp)
      unfold driven at this ⊢
      rw [List.zip_cons_cons, List.filterMap_cons, List.filterMap_cons, hco]
      cases hso : o.source with
      | none =>
        simp only [Option.isSome_none, Bool.false_eq_true, if_false]
        exact this
      | some s =>
        simp only [Option.isSome_some, if_true, List.map_cons]
        rw [this, hs (o, x) (by simp) s hso]

theorem closes_eq {T : Prog.Trace FReq FRep} (h : ∀ x ∈ T, FOk x.1) :
    T.flatMap (fun x => closesOf x.1) = (closeCalls T).map (·.2) := by
  induction T with
  | nil => rfl
  | cons x T ih =>
    have := ih (fun x hx => h x (List.mem_cons_of_mem _ hx))
    obtain ⟨q, r⟩ := x
    rw [List.flatMap_cons, this]
    cases q with
    | closeFd fd => exact absurd (h _ (List.mem_cons_self ..)) id
    | drv i fd d => cases d <;> rfl
    | _ => rfl

theorem Stepped.facts {T : Prog.Trace FReq FRep} {t : Prog.Trace LReq LRep} (h : Stepped T t) :
    ∀ x ∈ T, ∃ c, StepFacts x.1 x.2 c := by
  induction h with
  | nil => intro x hx; cases hx
  | cons f _ ih =>
    intro x hx
    rcases List.mem_cons.1 hx with rfl | hx
    · exact ⟨_, f⟩
    · exact ih x hx

theorem idents_append (s t : Prog.Trace LReq LRep) :
    nvmeIdentifies (s ++ t) = nvmeIdentifies s ++ nvmeIdentifies t ∧
    ataIdentifies (s ++ t) = ataIdentifies s ++ ataIdentifies t := by
  unfold nvmeIdentifies ataIdentifies
  exact ⟨List.filterMap_append, List.filterMap_append⟩

theorem Stepped.quiet {T : Prog.Trace FReq FRep} {t : Prog.Trace LReq LRep} (h : Stepped T t) (hT : tries T = []) :
    nvmeIdentifies t = [] ∧ ataIdentifies t = [] := by
  induction h with
  | nil => exact ⟨rfl, rfl⟩
  | @cons q r c T t f _ ih =>
    have hne : ∀ i fd, q ≠ .tryDriver i fd := by
      rintro i fd rfl
      cases hT
    have hT' : tries T = [] := by
      rw [← hT]
      cases q <;> first | rfl | exact absurd rfl (hne _ _)
    rw [(idents_append c t).1, (idents_append c t).2, (ih hT').1, (ih hT').2, f.nvOther (hne 0), f.sgOther (hne 1)]
    exact ⟨rfl, rfl⟩

theorem Stepped.firstTry {T : Prog.Trace FReq FRep} {t : Prog.Trace LReq LRep} (h : Stepped T t) {i fd : Nat} {r : FRep}
    {rest : List (Nat × Nat × FRep)} (hT : tries T = (i, fd, r) :: rest) :
    ∃ t₁ c T₂ t₂, t = t₁ ++ (c ++ t₂) ∧ nvmeIdentifies t₁ = [] ∧ ataIdentifies t₁ = [] ∧
      StepFacts (.tryDriver i fd) r c ∧ Stepped T₂ t₂ ∧ tries T₂ = rest := by
  induction h with
  | nil => cases hT
  | @cons q r' c T t f hs ih =>
    by_cases hq : ∃ j f', q = .tryDriver j f'
    · obtain ⟨j, f', rfl⟩ := hq
      have hT' : (j, f', r') :: tries T = (i, fd, r) :: rest := hT
      cases hT'
      exact ⟨[], c, T, t, rfl, rfl, rfl, f, hs, rfl⟩
    · have hne : ∀ i fd, q ≠ .tryDriver i fd := fun i fd h => hq ⟨i, fd, h⟩
      have hT' : tries T = (i, fd, r) :: rest := by
        rw [← hT]
        cases q <;> first | rfl | exact absurd rfl (hne _ _)
      obtain ⟨t₁, c', T₂, t₂, rfl, h1, h2, h3⟩ := ih hT'
      refine ⟨c ++ t₁, c', T₂, t₂, by rw [List.append_assoc], ?_, ?_, h3⟩
      · rw [(idents_append c t₁).1, h1, f.nvOther (hne 0)]; rfl
      · rw [(idents_append c t₁).2, h2, f.sgOther (hne 1)]; rfl

/-- The identify commands of one opening with both drivers. -/
theorem Stepped.identified {T : Prog.Trace FReq FRep} {t : Prog.Trace LReq LRep} (h : Stepped T t) {fd : Nat} {r₀ r₁ : FRep}
    (hT : tries T = [(0, fd, r₀), (1, fd, r₁)]) :
    ∃ nv a rest, nvmeIdentifies t = [(fd, nv)] ∧ ataIdentifies t = (a :: rest).map (fun x => (fd, x)) ∧
      (a.err = none → rest = []) ∧ (a.err ≠ none → rest.length = 1) ∧
      (r₀.err = none ↔ NvmeAccepts nv) ∧ (r₁.err = none ↔ SgAccepts (a :: rest)) ∧
      (r₀.err = none → r₀.driver = { ata := false, nvme := true, identity := delivered (zeros 4096) (nv.data.take 4096) }) ∧
      (r₁.err = none → r₁.driver = { ata := true, nvme := false, identity := delivered (zeros 512) a.data }) := by
  obtain ⟨t₁, c, T₂, t₂, rfl, a1, a2, f0, h2, hT2⟩ := h.firstTry hT
  obtain ⟨t₃, c', T₄, t₄, rfl, b1, b2, f1, h4, hT4⟩ := h2.firstTry hT2
  obtain ⟨q1, q2⟩ := h4.quiet hT4
  obtain ⟨nv, n1, n2, n3⟩ := f0.nv fd rfl
  obtain ⟨a, rest, s1, s2, s3, s4, s5⟩ := f1.sg fd rfl
  refine ⟨nv, a, rest, ?_, ?_, s2, s3, n2, s4, n3, s5⟩
  · simp only [(idents_append _ _).1]
    rw [a1, n1, b1, f1.nvOther (by simp), q1]
    rfl
  · simp only [(idents_append _ _).2]
    rw [a2, f0.sgOther (by simp), b2, s1, q2]
    simp

theorem tries_two {T : Prog.Trace FReq FRep} {fd : Nat}
    (h : (tries T).map (fun t => (t.1, t.2.1)) = (List.range' 0 2).map (fun k => (k, fd))) :
    ∃ r₀ r₁, tries T = [(0, fd, r₀), (1, fd, r₁)] := by
  match hT : tries T with
  | [] => rw [hT] at h; cases h
  | [x] => rw [hT] at h; simp [List.range'] at h
  | [(i, f, r₀), (j, g, r₁)] =>
    rw [hT] at h
    cases h
    exact ⟨r₀, r₁, rfl⟩
  | x :: y :: z :: l => rw [hT] at h; simp [List.range'] at h

/-! ## The properties -/

/-- **C116, opening.** Whatever the system answers, every ioctl that opening a drive sends to it only reads: Identify
(NVMe), IDENTIFY DEVICE, and receiving the level 0 discovery data (protocol 1, ComID 1). -/
theorem linux_open_reads_only (order : List (Bytes × Bytes) → List (Bytes × Bytes)) (path : Bytes)
    (env : Prog.Env LReq LRep) (hist : Prog.Trace LReq LRep) :
    ∀ x ∈ (OutT.run env hist (linuxOpenByPath order path)).2, ReadsOnly x.1 := by
  obtain ⟨env', -, h2, h3⟩ := onLinux_run (openByPath_within order path) env hist
  exact (stepped_of_chunks h2 (fun x hx => (h3 x hx).1)).reads

/-- **C116, enumeration.** The same for the enumeration, however many drives there are. -/
theorem linux_enum_reads_only (order : List (Bytes × Bytes) → List (Bytes × Bytes))
    (env : Prog.Env LReq LRep) (hist : Prog.Trace LReq LRep) :
    ∀ x ∈ (OutT.run env hist (linuxEnumDrives order)).2, ReadsOnly x.1 := by
  obtain ⟨env', -, h2, h3⟩ := onLinux_run (enumDrives_within order) env hist
  exact (stepped_of_chunks h2 (fun x hx => (h3 x hx).1)).reads

/-- The drive information is that of the ATA identity block `raw`. -/
def DescribesAta (raw : Bytes) (i : DriveInfo) : Prop :=
  (∃ m s f, PairSwapped (slice raw 54 40) m ∧ PairSwapped (slice raw 20 20) s ∧ PairSwapped (slice raw 46 8) f ∧
    Trimmed m i.model ∧ Trimmed s i.serial ∧ Trimmed f i.firmware) ∧
  (i.smartEnabled = true ↔ word raw 82 % 2 = 1 ∧ word raw 85 % 2 = 1) ∧
  (i.isSsd = true ↔ word raw 168 % 16 = 5 ∨ word raw 217 = 0 ∨ word raw 217 = 1) ∧
  i.ataIdentityRaw = some raw

/-- The drive information is that of the NVMe identity block `raw`. -/
def DescribesNvme (raw : Bytes) (i : DriveInfo) : Prop :=
  Trimmed (slice raw 24 40) i.model ∧ Trimmed (slice raw 4 20) i.serial ∧ Trimmed (slice raw 64 8) i.firmware ∧
  i.smartEnabled = true ∧ i.isSsd = true ∧ i.nvmeIdentityRaw = some raw

theorem linuxOpen_unfold (order : List (Bytes × Bytes) → List (Bytes × Bytes)) (path : Bytes) :
    ∃ k, linuxOpenByPath order path = (OutT.ask (.os (.openDev path)) >>= k) ∧
      ∀ r e, r.os.err = some e → k r = OutT.ret (.err e) := by
  let rest : FRep → FM (Res Opened) := fun r => match r.err with
    | some e => OutT.ret (.err e)
    | none => do
      let (o, e) ← openByFd 2 order r.fd path
      match e with
      | none => OutT.ret (.ok o)
      | some e => do
        let _ ← OutT.ask (.closeFd r.fd)
        OutT.ret (.err e)
  refine ⟨fun r => OutT.interp linuxStep (rest r.os), rfl, ?_⟩
  intro r e he
  dsimp only [rest]
  rw [he]
  rfl

/-- What an opened drive is, given the answers of the identify commands sent on its descriptor `fd`. -/
structure OpenedAs (fd : Nat) (o : Opened) (t : Prog.Trace LReq LRep) : Prop where
  /-- one NVMe Identify and one IDENTIFY DEVICE, the latter repeated once if it did not go through; both go to the new
  descriptor; the drive is described by the last one accepted -/
  drive : ∃ nv a rest, nvmeIdentifies t = [(fd, nv)] ∧ ataIdentifies t = (a :: rest).map (fun x => (fd, x)) ∧
    (a.err = none → rest = []) ∧ (a.err ≠ none → rest.length = 1) ∧
    (SgAccepts (a :: rest) → o.driverName = ascii "LinuxScsiDriver" ∧ o.drivingType = 1 ∧
      o.handle.dh = some { ata := true, nvme := false, identity := delivered (zeros 512) a.data } ∧
      DescribesAta (delivered (zeros 512) a.data) o.handle.info) ∧
    (¬ SgAccepts (a :: rest) → NvmeAccepts nv → o.driverName = ascii "LinuxNvmeDriver" ∧ o.drivingType = 2 ∧
      o.handle.dh = some { ata := false, nvme := true, identity := delivered (zeros 4096) (nv.data.take 4096) } ∧
      DescribesNvme (delivered (zeros 4096) (nv.data.take 4096)) o.handle.info) ∧
    (¬ SgAccepts (a :: rest) → ¬ NvmeAccepts nv → o.handle.dh = none ∧ o.driverName = [] ∧ o.drivingType = 0)

/-- The upper run behind a successful opening. -/
theorem linux_open_upper (order : List (Bytes × Bytes) → List (Bytes × Bytes)) (path : Bytes)
    (env : Prog.Env LReq LRep) (hist : Prog.Trace LReq LRep) (o : Opened)
    (h : (OutT.run env hist (linuxOpenByPath order path)).1 = .ret (.ok o)) :
    ∃ (before : Opened) (tr : Prog.Trace FReq FRep), (env hist (.os (.openDev path))).os.err = none ∧ Fresh path before ∧
      Stepped ((.openDev path, (env hist (.os (.openDev path))).os) :: tr) (OutT.run env hist (linuxOpenByPath order path)).2 ∧
      DriversTried (env hist (.os (.openDev path))).os.fd 2 0 before o tr := by
  obtain ⟨env', h1, h2, h3⟩ := onLinux_run (openByPath_within order path) env hist
  have hs := stepped_of_chunks h2 (fun x hx => (h3 x hx).1)
  have h1' : (OutT.run env' [] (openByPath 2 order path)).1 = .ret (.ok o) := h1.symm.trans h
  obtain ⟨before, tr, g1, g2, g3, D⟩ := open_by_path_drivers 2 order path env' [] o h1'
  have he : env' [] (.openDev path) = (env hist (.os (.openDev path))).os := by
    obtain ⟨k, hk, -⟩ := linuxOpen_unfold order path
    have ho := hs.opened
    rw [show onLinux (openByPath 2 order path) = _ from hk, OutT.run_ask_bind, g1] at ho
    have ho' : (path, (env hist (.os (.openDev path))).os) :: _ = (path, env' [] (.openDev path)) :: opens tr := ho
    simp only [List.cons.injEq, Prod.mk.injEq, true_and] at ho'
    exact ho'.1.symm
  rw [g1] at hs
  rw [he] at g2 D hs
  exact ⟨before, tr, g2, g3, hs, D⟩

/-- **C117.** Opening a drive on Linux. The node is opened once and first; if that fails, this is the error and nothing
else happens. If it succeeds no error is ever returned; and when a drive is returned, no descriptor was closed, the
node was opened once, and the drive is what the answers to the identify commands say (`OpenedAs`). -/
theorem linux_open (order : List (Bytes × Bytes) → List (Bytes × Bytes)) (path : Bytes)
    (env : Prog.Env LReq LRep) (hist : Prog.Trace LReq LRep) :
    (∀ e, (env hist (.os (.openDev path))).os.err = some e →
      OutT.run env hist (linuxOpenByPath order path) =
        (.ret (.err e), [(.os (.openDev path), env hist (.os (.openDev path)))])) ∧
    ((env hist (.os (.openDev path))).os.err = none →
      ∀ e, (OutT.run env hist (linuxOpenByPath order path)).1 ≠ .ret (.err e)) ∧
    (∀ o, (OutT.run env hist (linuxOpenByPath order path)).1 = .ret (.ok o) →
      o.devicePath = path ∧
      fdsOpened (OutT.run env hist (linuxOpenByPath order path)).2 = [(path, (env hist (.os (.openDev path))).os)] ∧
      fdsClosed (OutT.run env hist (linuxOpenByPath order path)).2 = [] ∧
      OpenedAs (env hist (.os (.openDev path))).os.fd o (OutT.run env hist (linuxOpenByPath order path)).2) := by
  obtain ⟨k, hk, hke⟩ := linuxOpen_unfold order path
  refine ⟨?_, ?_, ?_⟩
  · intro e he
    rw [hk, OutT.run_ask_bind, hke _ e he]
    rfl
  · intro hn e hr
    obtain ⟨env', h1, h2, h3⟩ := onLinux_run (openByPath_within order path) env hist
    have hs := stepped_of_chunks h2 (fun x hx => (h3 x hx).1)
    have h1' : (OutT.run env' [] (openByPath 2 order path)).1 = .ret (.err e) := h1.symm.trans hr
    obtain ⟨g1, g2⟩ := open_by_path_error_iff 2 order path env' [] e
    have he := g1.1 h1'
    have ho := hs.opened
    rw [show onLinux (openByPath 2 order path) = _ from hk, OutT.run_ask_bind, g2 he] at ho
    have ho' : (path, (env hist (.os (.openDev path))).os) :: _ = (path, env' [] (.openDev path)) :: [] := ho
    simp only [List.cons.injEq, Prod.mk.injEq, true_and] at ho'
    rw [ho'.1, he] at hn
    cases hn
  · intro o ho
    obtain ⟨before, tr, g2, g3, hs, D⟩ := linux_open_upper order path env hist o ho
    obtain ⟨r₀, r₁, hT⟩ := tries_two D.order
    obtain ⟨nv, a, rest, i1, i2, i3, i4, i5, i6, i7, i8⟩ := hs.identified (show tries (_ :: tr) = _ from hT)
    have hname : ∀ i a' b' more, callsTo i tr = (.drivingType, a') :: (.driverName, b') :: more →
        a'.num = (if i = 0 then 2 else 1) ∧
        b'.data = if i = 0 then ascii "LinuxNvmeDriver" else ascii "LinuxScsiDriver" := by
      intro i a' b' more hc
      have hmem : ∀ q d, (q, d) ∈ callsTo i tr → ∃ fd r, (FReq.drv i fd q, r) ∈ tr ∧ d = r.drv := by
        intro q d hq
        unfold callsTo at hq
        rw [List.mem_filterMap] at hq
        obtain ⟨⟨q', r⟩, hx, hy⟩ := hq
        cases q' with
        | drv j fd q'' =>
          simp only at hy
          split at hy
          · rename_i hj
            subst hj
            cases hy
            exact ⟨fd, r, hx, rfl⟩
          · cases hy
        | _ => cases hy
      obtain ⟨fd, r, hm, rfl⟩ := hmem .drivingType a' (by rw [hc]; simp)
      obtain ⟨fd', r', hm', rfl⟩ := hmem .driverName b' (by rw [hc]; simp)
      obtain ⟨c, hf⟩ := hs.facts _ (List.mem_cons_of_mem _ hm)
      obtain ⟨c', hf'⟩ := hs.facts _ (List.mem_cons_of_mem _ hm')
      exact ⟨hf.kind i fd rfl, hf'.name i fd' rfl⟩
    refine ⟨?_, ?_, ?_, ⟨nv, a, rest, i1, i2, i3, i4, ?_, ?_, ?_⟩⟩
    · obtain ⟨env', h1, -, -⟩ := onLinux_run (openByPath_within order path) env hist
      exact OutT.returns_run (openByPath_devicePath 2 order path) env' [] _ (h1.symm.trans ho) o rfl
    · rw [hs.opened]
      show _ :: opens tr = _
      rw [D.noOpen.1]
    · rw [hs.closed]
      rw [List.flatMap_eq_nil_iff]
      intro x hx
      rcases List.mem_cons.1 hx with rfl | hx
      · rfl
      · obtain ⟨q, r⟩ := x
        have hcl := D.noClose
        unfold closings at hcl
        cases q with
        | closeFd fd =>
          exfalso
          have := hcl fd
          rw [List.length_eq_zero_iff, List.filter_eq_nil_iff] at this
          exact this _ hx (by simp)
        | drv i fd d =>
          cases d with
          | close =>
            exfalso
            have := hcl fd
            rw [List.length_eq_zero_iff, List.filter_eq_nil_iff] at this
            exact this _ hx (by simp)
          | _ => rfl
        | _ => rfl
    · intro hsg
      have he1 := i6.2 hsg
      have hl : lastAccepted tr = some (1, (env hist (.os (.openDev path))).os.fd, r₁) := by
        unfold lastAccepted
        rw [hT]
        cases h0 : r₀.err <;> simp [accepted, h0, he1]
      obtain ⟨a', b', env', hh, c1, c2, c3⟩ := D.called (1, (env hist (.os (.openDev path))).os.fd, r₁) (by rw [hT]; simp) (show accepted (1, _, r₁) = true by simp [accepted, he1])
      obtain ⟨e1, e2, e, e3⟩ := c3 hl
      obtain ⟨n1, n2⟩ := hname 1 _ _ _ c2
      have hd := i8 he1
      dsimp only at c1
      rw [hd] at c1
      refine ⟨by rw [e2, n2]; rfl, by rw [e1, n1]; rfl, ?_, ?_⟩
      · rw [D.dh, hl]
        show some r₁.driver = _
        rw [hd]
      · obtain ⟨-, ⟨m, s, f, x1, x2, x3, x4, x5, x6, -⟩, y, z, w, hraw⟩ := ata_identity_any hh o.handle _ e env' [] c1 rfl rfl
          (by rw [delivered_length]; simp) e3
        refine ⟨⟨m, s, f, x1, x2, x3, x4, x5, x6⟩, y, ?_, hraw⟩
        rw [w, z]
        dsimp only
        split <;> split <;> simp_all
    · intro hsg hnv
      have he1 : r₁.err ≠ none := fun h => hsg (i6.1 h)
      have he0 := i5.2 hnv
      have hl : lastAccepted tr = some (0, (env hist (.os (.openDev path))).os.fd, r₀) := by
        unfold lastAccepted
        rw [hT]
        cases h1 : r₁.err with
        | none => exact absurd h1 he1
        | some e => simp [accepted, h1, he0]
      obtain ⟨a', b', env', hh, c1, c2, c3⟩ := D.called (0, (env hist (.os (.openDev path))).os.fd, r₀) (by rw [hT]; simp) (show accepted (0, _, r₀) = true by simp [accepted, he0])
      obtain ⟨e1, e2, e, e3⟩ := c3 hl
      obtain ⟨n1, n2⟩ := hname 0 _ _ _ c2
      have hd := i7 he0
      dsimp only at c1
      rw [hd] at c1
      refine ⟨by rw [e2, n2]; rfl, by rw [e1, n1]; rfl, ?_, ?_⟩
      · rw [D.dh, hl]
        show some r₀.driver = _
        rw [hd]
      · obtain ⟨-, x1, x2, x3, x4, x5, -, x6⟩ := nvme_identity_any hh o.handle _ e env' [] c1 rfl
          (by rw [delivered_length, zeros_length]; exact Nat.le_refl _) e3
        exact ⟨x1, x2, x3, x4, x5, x6⟩
    · intro hsg hnv
      have he1 : r₁.err ≠ none := fun h => hsg (i6.1 h)
      have he0 : r₀.err ≠ none := fun h => hnv (i5.1 h)
      have hl : lastAccepted tr = none := by
        unfold lastAccepted
        rw [hT]
        cases h1 : r₁.err with
        | none => exact absurd h1 he1
        | some e =>
          cases h0 : r₀.err with
          | none => exact absurd h0 he0
          | some e => simp [accepted, h1, h0]
      rw [D.nothing hl]
      exact ⟨g3.dh, g3.driverName, g3.drivingType⟩

/-- **C118, closing.** `Close` on an opened drive closes the drive's descriptor, once, if some driver accepted the drive;
otherwise it makes no system call, so the descriptor stays open. -/
theorem linux_close (order : List (Bytes × Bytes) → List (Bytes × Bytes)) (path : Bytes)
    (env : Prog.Env LReq LRep) (hist hist' : Prog.Trace LReq LRep) (o : Opened)
    (h : (OutT.run env hist (linuxOpenByPath order path)).1 = .ret (.ok o)) :
    ∃ o' t, OutT.run env hist' (linuxClose o) = (.ret o', t) ∧ o'.handle.dh = none ∧
      (o.handle.dh.isSome → ∃ p r, t = [(.place, p), (.os (.closeFd (env hist (.os (.openDev path))).os.fd), r)]) ∧
      (o.handle.dh = none → t = []) := by
  obtain ⟨before, tr, g2, g3, hs, D⟩ := linux_open_upper order path env hist o h
  unfold linuxClose onLinux Opened.close
  cases hl : lastAccepted tr with
  | none =>
    have h1 : o.source = none := by rw [D.source, hl, g3.source]; rfl
    have h2 : o.handle.dh = none := by rw [D.dh, hl, g3.dh]; rfl
    rw [h1]
    unfold Handle.close
    rw [h2]
    exact ⟨_, _, rfl, h2, (fun x => by cases x), fun _ => rfl⟩
  | some x =>
    obtain ⟨i, f, r⟩ := x
    have h1 : o.source = some (i, f) := by rw [D.source, hl]; rfl
    have h2 : o.handle.dh = some r.driver := by rw [D.dh, hl]; rfl
    obtain ⟨hi, hi2, hf⟩ := tries_mem_range D.order (List.mem_filter.1 (List.mem_of_getLast? hl)).1
    dsimp only at hi hi2 hf
    rw [h1]
    unfold Handle.close
    rw [h2]
    match i, hi2 with
    | 0, _ =>
      subst hf
      exact ⟨_, _, rfl, rfl, fun _ => ⟨env hist' .place, env (hist' ++ [(.place, env hist' .place)])
        (.os (.closeFd (env hist (.os (.openDev path))).os.fd)), rfl⟩, (fun x => by cases x)⟩
    | 1, _ =>
      subst hf
      exact ⟨_, _, rfl, rfl, fun _ => ⟨env hist' .place, env (hist' ++ [(.place, env hist' .place)])
        (.os (.closeFd (env hist (.os (.openDev path))).os.fd)), rfl⟩, (fun x => by cases x)⟩

/-- **C118, enumeration.** `EnumDrives` on Linux fails only if /sys/block cannot be read. Otherwise, when it returns, every
record is what opening a node at that moment gave (so C117 applies to it), the nodes looked at and opened are those of
C68, and the descriptors closed are exactly those of the opened drives that have a driver, each once, the last first: a
drive no driver accepted keeps its descriptor. -/
theorem linux_enum (order : List (Bytes × Bytes) → List (Bytes × Bytes))
    (env : Prog.Env LReq LRep) (hist : Prog.Trace LReq LRep) :
    (∀ e, (env hist (.os (.readDir (ascii "/sys/block")))).os.err = some e →
      OutT.run env hist (linuxEnumDrives order) = (.ret (.err (.msg "open /sys/block failed")),
        [(.os (.readDir (ascii "/sys/block")), env hist (.os (.readDir (ascii "/sys/block"))))])) ∧
    ((env hist (.os (.readDir (ascii "/sys/block")))).os.err = none →
      (∀ e, (OutT.run env hist (linuxEnumDrives order)).1 ≠ .ret (.err e)) ∧
      ∀ os, (OutT.run env hist (linuxEnumDrives order)).1 = .ret (.ok os) →
        Enumerated (env hist (.os (.readDir (ascii "/sys/block")))).os.names os
          (ownCalls (OutT.run env hist (linuxEnumDrives order)).2) ∧
        (∀ o ∈ os, ∃ name ∈ (env hist (.os (.readDir (ascii "/sys/block")))).os.names, ∃ t₁ c t₂,
          (OutT.run env hist (linuxEnumDrives order)).2 = t₁ ++ (c ++ t₂) ∧
          OutT.run env (hist ++ t₁) (linuxOpenByPath order (ascii "/dev/" ++ name)) = (.ret (.ok o), c)) ∧
        fdsClosed (OutT.run env hist (linuxEnumDrives order)).2 =
          (driven (os.zip ((fdsOpened (OutT.run env hist (linuxEnumDrives order)).2).filter (fun x => x.2.err = none)))).reverse) := by
  let rest : FRep → FM (Res (List Opened)) := fun d => match d.err with
    | some _ => OutT.ret (.err (.msg "open /sys/block failed"))
    | none => do
      let os ← enumLoop 2 order d.names
      OutT.ret (.ok os)
  have hk : linuxEnumDrives order = (OutT.ask (.os (.readDir (ascii "/sys/block"))) >>= fun r =>
    OutT.interp linuxStep (rest r.os)) := rfl
  obtain ⟨d, hd⟩ : ∃ d, d = env hist (.os (.readDir (ascii "/sys/block"))) := ⟨_, rfl⟩
  obtain ⟨env', h1, h2, h3, h4⟩ := onLinux_parts (β := Res Opened) (enumDrives_within order) env hist
  have h3' := fun x hx => (h3 x hx).1
  have hs := stepped_of_chunks h2 h3'
  obtain ⟨tl, hfirst⟩ : ∃ tl, (OutT.run env hist (onLinux (enumDrives 2 order))).2 =
      (.os (.readDir (ascii "/sys/block")), d) :: tl := by
    rw [show onLinux (enumDrives 2 order) = _ from hk, OutT.run_ask_bind, ← hd]
    exact ⟨_, rfl⟩
  rw [← hd]
  refine ⟨?_, ?_⟩
  · intro e he
    rw [hk, OutT.run_ask_bind, ← hd]
    dsimp only [rest]
    rw [he]
    rfl
  · intro he
    obtain ⟨-, e2⟩ := enum_drives 2 order env' []
    have hde : env' [] (.readDir (ascii "/sys/block")) = d.os := by
      have hup : ∃ tu, (OutT.run env' [] (enumDrives 2 order)).2 =
          (.readDir (ascii "/sys/block"), env' [] (.readDir (ascii "/sys/block"))) :: tu := by
        unfold enumDrives
        rw [OutT.run_ask_bind]
        exact ⟨_, rfl⟩
      obtain ⟨tu, hup⟩ := hup
      rw [hup, hfirst] at h2
      generalize env' [] (.readDir (ascii "/sys/block")) = d' at h2 ⊢
      generalize hall : (LReq.os (FReq.readDir (ascii "/sys/block")), d) :: tl = all at h2
      cases h2 with
      | cons hc ht =>
        have hc' : OutT.run env _ (OutT.ask (.os (.readDir (ascii "/sys/block"))) >>= fun r =>
          (OutT.ret r.os : LM FRep)) = _ := hc
        rw [OutT.run_ask_bind] at hc'
        simp only [OutT.run_ret, Prod.mk.injEq, Out.ret.injEq] at hc'
        obtain ⟨a, b⟩ := hc'
        rw [← b] at hall
        simp only [List.cons_append, List.nil_append, List.cons.injEq, Prod.mk.injEq, true_and] at hall
        rw [← a, hall.1]
    rw [hde] at e2
    obtain ⟨e3, e4⟩ := e2 he
    refine ⟨fun e hr => e3 e (h1.symm.trans hr), ?_⟩
    intro os hr
    obtain ⟨g1, g2, g3⟩ := e4 os (h1.symm.trans hr)
    have ho : opens (ownCalls (OutT.run env hist (linuxEnumDrives order)).2) = opens (OutT.run env' [] (enumDrives 2 order)).2 :=
      (ownCalls_opens _).trans hs.opened
    refine ⟨enumerated_congr g1 ho ((ownCalls_stats _).trans hs.stated), ?_, ?_⟩
    · intro o hm
      have hru := h1.symm.trans hr
      rcases hrun : OutT.run env' [] (enumDrives 2 order) with ⟨x, tu⟩
      rw [hrun] at hru
      dsimp only at hru
      subst hru
      have hrun0 := hrun
      unfold enumDrives at hrun
      rw [OutT.run_ask_bind, hde] at hrun
      simp only [he] at hrun
      rcases hl : OutT.run env' ([] ++ [(.readDir (ascii "/sys/block"), d.os)]) (enumLoop 2 order d.os.names) with ⟨y, u⟩
      cases y with
      | panic => rw [OutT.run_bind, hl] at hrun; cases hrun
      | running => rw [OutT.run_bind, hl] at hrun; cases hrun
      | ret os' =>
        rw [OutT.run_bind_ret env' _ hl] at hrun
        simp only [OutT.run_ret, List.append_nil, Prod.mk.injEq, Out.ret.injEq, Res.ok.injEq] at hrun
        obtain ⟨rfl, rfl⟩ := hrun
        obtain ⟨name, hn, T₁, C, T₂, k1, k2⟩ := enumLoop_parts 2 order env' d.os.names _ _ _ hl o hm
        obtain ⟨t₁, c, t₂, m1, m2⟩ := h4 (openByPath 2 order (ascii "/dev/" ++ name)) (openByPath_within order _)
          ((.readDir (ascii "/sys/block"), d.os) :: T₁) C T₂ _ (by rw [hrun0, k1]; rfl) (by simpa using k2)
        exact ⟨name, hn, t₁, c, t₂, m1, m2⟩
    · have hc := hs.closed
      rw [closes_eq h3', g2, List.map_reverse] at hc
      refine hc.trans ?_
      congr 1
      have := driven_eq os _ (by simpa using congrArg List.length g1.records) g3 g1.owners
      rw [this, ← hs.opened]
      rfl

/-- A system with an ATA drive sda (descriptor 7), a drive sdb that no driver accepts (descriptor 8) and a node sdc that
cannot be opened. -/
def sampleLinux : Prog.Env LReq LRep := fun _ q => match q with
  | .os (.readDir p) => if p = ascii "/sys/block" then { os := { names := [ascii "sda", ascii "sdb", ascii "sdc", ascii "loop0"] } }
      else { os := { err := some (.errno 2) } }
  | .os (.stat _) => { os := { num := 0o060660 } }
  | .os (.openDev p) => if p = ascii "/dev/sda" then { os := { fd := 7 } } else if p = ascii "/dev/sdb" then { os := { fd := 8 } }
      else { os := { err := some (.errno 13) } }
  | .os (.closeFd _) => {}
  | .os _ => { os := { err := some (.errno 5) } }
  | .place => { addr := 4096, base := 8192, base' := 16384 }
  | .nvme .. => { nv := { errno := 25 } }
  | .nvmeIo .. => {}
  | .sgIo fd q => if fd = 7 ∧ isAtaCommand q.cdb 0xec then { sg := { data := zeros 54 ++ ascii "oMed l1" } }
      else { sg := { err := some (.errno 22) } }

/-- Opening the ATA drive, opening the drive nobody accepts, and a node that cannot be opened; what `Close` does then. -/
example :
    (match OutT.run sampleLinux [] (linuxOpenByPath id (ascii "/dev/sda")) with
      | (.ret (.ok o), t) => (o.driverName, o.handle.info.model.take 4, fdsClosed t, (ataIdentifies t).map (·.1),
          (nvmeIdentifies t).map (·.1), fdsClosed (OutT.run sampleLinux t (linuxClose o)).2)
      | _ => default) = (ascii "LinuxScsiDriver", ascii "Mode", [], [7], [7], [7]) := by
  decide +kernel

example :
    (match OutT.run sampleLinux [] (linuxOpenByPath id (ascii "/dev/sdb")) with
      | (.ret (.ok o), t) => (o.driverName, o.handle.dh, fdsClosed t, (ataIdentifies t).map (·.1),
          fdsClosed (OutT.run sampleLinux t (linuxClose o)).2)
      | _ => default) = ([], none, [], [8, 8], []) ∧
    (match OutT.run sampleLinux [] (linuxOpenByPath id (ascii "/dev/sdc")) with
      | (.ret (.err e), t) => (some e, t.length)
      | _ => default) = (some (.errno 13), 1) := by
  decide +kernel

/-- The enumeration: two drives, of which only the one with a driver is closed. -/
example :
    (match OutT.run sampleLinux [] (linuxEnumDrives id) with
      | (.ret (.ok os), t) => (os.map (·.devicePath), (fdsOpened t).map (·.1), fdsClosed t)
      | _ => default) = ([ascii "/dev/sda", ascii "/dev/sdb"], [ascii "/dev/sda", ascii "/dev/sdb", ascii "/dev/sdc"], [7]) := by
  decide +kernel

end Dparm
