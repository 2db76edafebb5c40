import Verif.Lemmas.Factory
import Verif.Props.Handle
/-!
# C67, C68: opening and enumerating drives on Linux
-/
namespace Dparm

/-- What `OpenByPath` does with the drivers, read off the trace `tr` of the attempts and the resulting handle:
driver indices `i .. i+n-1` are tried in order on descriptor `fd`; `before` is the handle's state if none accepts. -/
structure DriversTried (fd n i : Nat) (before o : Opened) (tr : Prog.Trace FReq FRep) : Prop where
  /-- every driver is tried, in list order, whatever the others answered -/
  order : (tries tr).map (fun t => (t.1, t.2.1)) = (List.range' i n).map (fun k => (k, fd))
  /-- the handle ends up with the last driver that accepted -/
  source : o.source = ((lastAccepted tr).map (fun t => (t.1, t.2.1))).or before.source
  dh : o.handle.dh = ((lastAccepted tr).map (fun t => t.2.2.driver)).or before.handle.dh
  /-- a driver that refused is not called -/
  refused : ∀ t ∈ tries tr, accepted t = false → callsTo t.1 tr = []
  /-- a driver that accepted is asked for type and name, then `Init` runs on it, once -/
  called : ∀ t ∈ tries tr, accepted t = true → ∃ (a b : DrvRep) (env' : Prog.Env DrvReq DrvRep) (h : Handle),
    h.dh = some t.2.2.driver ∧
    callsTo t.1 tr = (.drivingType, a) :: (.driverName, b) :: (OutT.run env' [] h.init).2 ∧
    (lastAccepted tr = some t → o.drivingType = a.num ∧ o.driverName = b.data ∧
      ∃ e, (OutT.run env' [] h.init).1 = .ret (o.handle, e))
  /-- without an accepting driver nothing is filled in -/
  nothing : lastAccepted tr = none → o = before
  /-- nobody else is called and nothing is closed -/
  noClose : ∀ f, closings f tr = 0
  noOpen : opens tr = [] ∧ stats tr = []
  others : ∀ k, (k < i ∨ i + n ≤ k) → callsTo k tr = []

theorem lastAccepted_cons_refused {i fd : Nat} {r : FRep} {tr : Prog.Trace FReq FRep} {e : GoErr} (h : r.err = some e) :
    lastAccepted ((.tryDriver i fd, r) :: tr) = lastAccepted tr := by
  simp [lastAccepted, tries, accepted, h]

theorem getLast?_cons_or {α : Type} (a : α) (l : List α) : (a :: l).getLast? = l.getLast?.or (some a) := by
  rw [List.getLast?_cons]
  cases l.getLast? <;> rfl

theorem lastAccepted_cons_accepted {i fd : Nat} {r : FRep} {tr : Prog.Trace FReq FRep} (h : r.err = none) :
    lastAccepted ((.tryDriver i fd, r) :: tr) = (lastAccepted tr).or (some (i, fd, r)) := by
  have : ((tries ((.tryDriver i fd, r) :: tr)).filter accepted) = (i, fd, r) :: ((tries tr).filter accepted) := by
    simp [tries, accepted, h]
  rw [lastAccepted, this, getLast?_cons_or]
  rfl

theorem tries_mem_range {fd n i : Nat} {tr : Prog.Trace FReq FRep}
    (h : (tries tr).map (fun t => (t.1, t.2.1)) = (List.range' i n).map (fun k => (k, fd)))
    {t : Nat × Nat × FRep} (ht : t ∈ tries tr) : i ≤ t.1 ∧ t.1 < i + n ∧ t.2.1 = fd := by
  have : (t.1, t.2.1) ∈ (List.range' i n).map (fun k => (k, fd)) := by
    rw [← h]
    exact List.mem_map_of_mem (f := fun t : Nat × Nat × FRep => (t.1, t.2.1)) ht
  simp only [List.mem_map, List.mem_range'_1, Prod.mk.injEq] at this
  obtain ⟨k, ⟨h1, h2⟩, h3, h4⟩ := this
  omega

theorem lastAccepted_mem {tr : Prog.Trace FReq FRep} {t : Nat × Nat × FRep} (h : lastAccepted tr = some t) :
    t ∈ tries tr ∧ accepted t = true := by
  have := List.mem_of_getLast? h
  simpa [List.mem_filter] using this

theorem tryDrivers_spec (fd : Nat) (env : Prog.Env FReq FRep) (n : Nat) :
    ∀ (i : Nat) (hist : Prog.Trace FReq FRep) (before o : Opened),
    (OutT.run env hist (tryDrivers fd n i before)).1 = .ret o →
    DriversTried fd n i before o (OutT.run env hist (tryDrivers fd n i before)).2 := by
  induction n with
  | zero =>
    intro i hist before o h
    simp only [tryDrivers, OutT.run_ret, Out.ret.injEq] at h
    subst h
    simp only [tryDrivers, OutT.run_ret]
    exact ⟨rfl, rfl, rfl, by intro t ht; simp [tries] at ht, by intro t ht; simp [tries] at ht, fun _ => rfl,
      fun _ => rfl, ⟨rfl, rfl⟩, fun _ _ => rfl⟩
  | succ n ih =>
    intro i hist before o h
    rw [tryDrivers, OutT.run_ask_bind] at h ⊢
    obtain ⟨r, hr⟩ : ∃ r, r = env hist (.tryDriver i fd) := ⟨_, rfl⟩
    rw [← hr] at h ⊢
    obtain ⟨H, hH⟩ : ∃ H, H = hist ++ [(FReq.tryDriver i fd, r)] := ⟨_, rfl⟩
    rw [← hH] at h ⊢
    simp only at h ⊢
    cases he : r.err with
    | some e =>
      simp only [he] at h ⊢
      have I := ih (i + 1) H before o h
      obtain ⟨T, hT⟩ : ∃ T, T = (OutT.run env H (tryDrivers fd n (i + 1) before)).2 := ⟨_, rfl⟩
      rw [← hT] at I ⊢
      have hcalls : ∀ k, callsTo k ((.tryDriver i fd, r) :: T) = callsTo k T := fun k => rfl
      have htries : tries ((.tryDriver i fd, r) :: T) = (i, fd, r) :: tries T := rfl
      refine ⟨?_, ?_, ?_, ?_, ?_, ?_, ?_, ?_, ?_⟩
      · rw [htries, List.map_cons, I.order, List.range'_succ, List.map_cons]
      · rw [lastAccepted_cons_refused he]; exact I.source
      · rw [lastAccepted_cons_refused he]; exact I.dh
      · intro t ht ha
        rw [htries] at ht
        rw [hcalls]
        simp only [List.mem_cons] at ht
        rcases ht with rfl | ht
        · exact I.others _ (by simp)
        · exact I.refused t ht ha
      · intro t ht ha
        rw [htries] at ht
        rw [hcalls]
        simp only [List.mem_cons] at ht
        rcases ht with rfl | ht
        · simp [accepted, he] at ha
        · rw [lastAccepted_cons_refused he]; exact I.called t ht ha
      · rw [lastAccepted_cons_refused he]; exact I.nothing
      · exact I.noClose
      · exact I.noOpen
      · intro k hk
        rw [hcalls]
        exact I.others k (by omega)
    | none =>
      simp only [he] at h ⊢
      obtain ⟨a, ha⟩ : ∃ a, a = env H (.drv i fd .drivingType) := ⟨_, rfl⟩
      obtain ⟨H1, hH1⟩ : ∃ H1, H1 = H ++ [(FReq.drv i fd .drivingType, a)] := ⟨_, rfl⟩
      obtain ⟨b, hb⟩ : ∃ b, b = env H1 (.drv i fd .driverName) := ⟨_, rfl⟩
      obtain ⟨H2, hH2⟩ : ∃ H2, H2 = H1 ++ [(FReq.drv i fd .driverName, b)] := ⟨_, rfl⟩
      obtain ⟨hd, hhd⟩ : ∃ hd : Handle, hd = { before.handle with dh := some r.driver } := ⟨_, rfl⟩
      have hT : OutT.run env H (onDriver i fd hd.getDrivingType) = (.ret a.drv.num, [(.drv i fd .drivingType, a)]) := by
        subst hhd ha; rfl
      have hN : OutT.run env H1 (onDriver i fd hd.getDriverName) = (.ret b.drv.data, [(.drv i fd .driverName, b)]) := by
        subst hhd hb; rfl
      rw [← hhd] at h ⊢
      rw [OutT.run_bind_ret env H hT, ← hH1, OutT.run_bind_ret env H1 hN, ← hH2] at h ⊢
      rw [OutT.run_bind] at h ⊢
      obtain ⟨env', e1, e2⟩ := onDriver_run i fd hd.init env H2
      have hI1 := OutT.asks_run (onDriver_asks i fd (init_asks hd)) env H2
      have hI2 := fun x => OutT.returns_run (onDriver_returns i fd (init_returns_dh hd)) env H2 x
      rcases hrun : OutT.run env H2 (onDriver i fd hd.init) with ⟨out, t3⟩
      rw [hrun] at h e1 e2 hI1 hI2
      simp only at h e1 e2 hI1 hI2 ⊢
      cases out with
      | panic => simp at h
      | running => simp at h
      | ret x =>
        obtain ⟨h3, e3⟩ := x
        simp only at h ⊢
        have hdh : h3.dh = some r.driver := by
          have := hI2 _ rfl
          simp only at this
          rw [this, hhd]
        obtain ⟨o2, ho2⟩ : ∃ o2, o2 = ({ before with handle := h3, source := some (i, fd), drivingType := a.drv.num, driverName := b.drv.data } : Opened) := ⟨_, rfl⟩
        rw [← ho2] at h ⊢
        have I := ih (i + 1) (H2 ++ t3) o2 o h
        obtain ⟨T, hT⟩ : ∃ T, T = (OutT.run env (H2 ++ t3) (tryDrivers fd n (i + 1) o2)).2 := ⟨_, rfl⟩
        rw [← hT] at I ⊢
        obtain ⟨m1, m2, m3, m4, m5⟩ := driver_marks hI1
        have htries : tries ((.tryDriver i fd, r) :: ([(.drv i fd .drivingType, a)] ++
            ([(.drv i fd .driverName, b)] ++ (t3 ++ T)))) = (i, fd, r) :: tries T := by
          show (i, fd, r) :: tries (t3 ++ T) = _
          rw [tries_append, m1]; rfl
        have hlast : lastAccepted ((.tryDriver i fd, r) :: ([(.drv i fd .drivingType, a)] ++
            ([(.drv i fd .driverName, b)] ++ (t3 ++ T)))) = (lastAccepted T).or (some (i, fd, r)) := by
          rw [lastAccepted, htries, List.filter_cons, if_pos (by simp [accepted, he]), getLast?_cons_or]
          rfl
        have hcallsne : ∀ k, k ≠ i → callsTo k ((.tryDriver i fd, r) :: ([(.drv i fd .drivingType, a)] ++
            ([(.drv i fd .driverName, b)] ++ (t3 ++ T)))) = callsTo k T := by
          intro k hk
          have : callsTo k ((.tryDriver i fd, r) :: ([(.drv i fd .drivingType, a)] ++
            ([(.drv i fd .driverName, b)] ++ (t3 ++ T)))) = callsTo k (t3 ++ T) := by
            simp [callsTo, Ne.symm hk]
          rw [this, callsTo_append, m2 k hk]; rfl
        have hcallsi : callsTo i ((.tryDriver i fd, r) :: ([(.drv i fd .drivingType, a)] ++
            ([(.drv i fd .driverName, b)] ++ (t3 ++ T)))) =
            (.drivingType, a.drv) :: (.driverName, b.drv) :: (OutT.run env' [] hd.init).2 := by
          have : callsTo i ((.tryDriver i fd, r) :: ([(.drv i fd .drivingType, a)] ++
            ([(.drv i fd .driverName, b)] ++ (t3 ++ T)))) =
            (.drivingType, a.drv) :: (.driverName, b.drv) :: callsTo i (t3 ++ T) := by
            simp [callsTo]
          rw [this, callsTo_append, e2, I.others i (by omega), List.append_nil]
        refine ⟨?_, ?_, ?_, ?_, ?_, ?_, ?_, ?_, ?_⟩
        · rw [htries, List.map_cons, I.order, List.range'_succ, List.map_cons]
        · rw [hlast, I.source, ho2]
          cases lastAccepted T <;> rfl
        · rw [hlast, I.dh, ho2, hdh]
          cases lastAccepted T <;> rfl
        · intro t ht hacc
          rw [htries] at ht
          simp only [List.mem_cons] at ht
          rcases ht with rfl | ht
          · simp [accepted, he] at hacc
          · have := (tries_mem_range I.order ht).1
            rw [hcallsne t.1 (by omega)]
            exact I.refused t ht hacc
        · intro t ht hacc
          rw [htries] at ht
          simp only [List.mem_cons] at ht
          rcases ht with rfl | ht
          · refine ⟨a.drv, b.drv, env', hd, by rw [hhd], hcallsi, ?_⟩
            intro hl
            rw [hlast] at hl
            have hnone : lastAccepted T = none := by
              cases hl' : lastAccepted T with
              | none => rfl
              | some t =>
                rw [hl'] at hl
                simp only [Option.some_or, Option.some.injEq] at hl
                have := (tries_mem_range I.order (lastAccepted_mem hl').1).1
                rw [hl] at this
                simp at this
                omega
            have := I.nothing hnone
            subst this
            rw [ho2]
            exact ⟨rfl, rfl, e3, by rw [← e1]⟩
          · have hr := (tries_mem_range I.order ht).1
            rw [hcallsne t.1 (by omega)]
            obtain ⟨a', b', env2, h', q1, q2, q3⟩ := I.called t ht hacc
            refine ⟨a', b', env2, h', q1, q2, ?_⟩
            intro hl
            apply q3
            rw [hlast] at hl
            cases hl' : lastAccepted T with
            | some t' => rw [hl'] at hl; exact hl
            | none =>
              rw [hl'] at hl
              simp only [Option.none_or, Option.some.injEq] at hl
              rw [← hl] at hr
              simp at hr
              omega
        · intro hl
          rw [hlast] at hl
          cases hl' : lastAccepted T <;> rw [hl'] at hl <;> simp at hl
        · intro f
          show closings f (t3 ++ T) = 0
          rw [closings_append, m5, I.noClose]
        · refine ⟨?_, ?_⟩
          · show opens (t3 ++ T) = []
            rw [opens_append, m3, I.noOpen.1]; rfl
          · show stats (t3 ++ T) = []
            rw [stats_append, m4, I.noOpen.2]; rfl
        · intro k hk
          rw [hcallsne k (by omega)]
          exact I.others k (by omega)

/-- A bind whose first part can only be described by what it asks: split the run. -/
theorem OutT.run_bind_cases {Q R α β : Type} {env : Prog.Env Q R} {hist : Prog.Trace Q R} {p : OutT Q R α}
    {f : α → OutT Q R β} {b : β} (h : (OutT.run env hist (p >>= f)).1 = .ret b) :
    ∃ a, (OutT.run env hist p).1 = .ret a ∧
      (OutT.run env (hist ++ (OutT.run env hist p).2) (f a)).1 = .ret b ∧
      (OutT.run env hist (p >>= f)).2 =
        (OutT.run env hist p).2 ++ (OutT.run env (hist ++ (OutT.run env hist p).2) (f a)).2 := by
  rw [OutT.run_bind] at h ⊢
  rcases hp : OutT.run env hist p with ⟨o, t⟩
  rw [hp] at h
  cases o with
  | ret a => exact ⟨a, rfl, h, rfl⟩
  | panic => simp at h
  | running => simp at h

/-- Requests `OpenByFd` can make. -/
def isOpenByFdCall (fd : Nat) : FReq → Prop
  | .tryDriver _ f => f = fd
  | .drv _ f d => f = fd ∧ (isSecurityCall d ∨ d = .drivingType ∨ d = .driverName)
  | q => isProbe q

theorem isProbe_openByFd {fd : Nat} : ∀ q, isProbe q → isOpenByFdCall fd q := by
  intro q h; cases q <;> first | exact h | simp [isProbe] at h

theorem tryDrivers_asks (fd n : Nat) : ∀ i o, OutT.Asks (isOpenByFdCall fd) (tryDrivers fd n i o) := by
  induction n with
  | zero => intro i o; exact OutT.asks_ret _
  | succ n ih =>
    intro i o
    unfold tryDrivers
    refine OutT.asks_bind (OutT.asks_ask (by rfl)) (fun r => ?_)
    split
    · exact ih _ _
    · refine OutT.asks_bind (OutT.asks_mono ?_ (onDriver_asks i fd (A := fun d => d = .drivingType) ?_)) (fun t => ?_)
      · rintro q ⟨d, rfl, rfl⟩; exact ⟨rfl, Or.inr (Or.inl rfl)⟩
      · exact OutT.asks_bind (OutT.asks_ask rfl) (fun _ => OutT.asks_ret _)
      refine OutT.asks_bind (OutT.asks_mono ?_ (onDriver_asks i fd (A := fun d => d = .driverName) ?_)) (fun nm => ?_)
      · rintro q ⟨d, rfl, rfl⟩; exact ⟨rfl, Or.inr (Or.inr rfl)⟩
      · exact OutT.asks_bind (OutT.asks_ask rfl) (fun _ => OutT.asks_ret _)
      refine OutT.asks_bind (OutT.asks_mono ?_ (onDriver_asks i fd (init_asks _))) (fun x => ?_)
      · rintro q ⟨d, hd, rfl⟩; exact ⟨rfl, Or.inl hd⟩
      exact ih _ _

theorem openByFd_asks (n : Nat) (order : List (Bytes × Bytes) → List (Bytes × Bytes)) (fd : Nat) (path : Bytes) :
    OutT.Asks (isOpenByFdCall fd) (openByFd n order fd path) := by
  unfold openByFd
  refine OutT.asks_bind (OutT.asks_mono isProbe_openByFd (readBasicInfo_asks fd path)) (fun b => ?_)
  refine OutT.asks_bind (OutT.asks_mono isProbe_openByFd (getIdInfo_asks order path)) (fun x => ?_)
  exact OutT.asks_bind (tryDrivers_asks ..) (fun _ => OutT.asks_ret _)

theorem openByFd_marks {fd : Nat} {tr : Prog.Trace FReq FRep} (h : ∀ x ∈ tr, isOpenByFdCall fd x.1) :
    opens tr = [] ∧ stats tr = [] ∧ ∀ f, closings f tr = 0 := by
  induction tr with
  | nil => exact ⟨rfl, rfl, fun _ => rfl⟩
  | cons x t ih =>
    obtain ⟨h1, h2, h3⟩ := ih (fun y hy => h y (by simp [hy]))
    have hx := h x (by simp)
    obtain ⟨q, r⟩ := x
    cases q with
    | drv i f d =>
      refine ⟨h1, h2, fun f' => ?_⟩
      rw [← h3 f']
      cases d with
      | close => simp [isOpenByFdCall, isSecurityCall] at hx
      | _ => rfl
    | _ =>
      first
      | exact ⟨h1, h2, fun f => h3 f⟩
      | simp [isOpenByFdCall, isProbe] at hx

theorem openByFd_returns (n : Nat) (order : List (Bytes × Bytes) → List (Bytes × Bytes)) (fd : Nat) (path : Bytes) :
    OutT.Returns (fun x => x.2 = none) (openByFd n order fd path) := by
  unfold openByFd
  refine OutT.returns_bind (OutT.returns_any _) (fun b _ => ?_)
  refine OutT.returns_bind (OutT.returns_any _) (fun x _ => ?_)
  exact OutT.returns_bind (OutT.returns_any _) (fun _ _ => OutT.returns_ret rfl)

/-- The record before any driver is tried: no driver, the path, nothing known about removability. -/
structure Fresh (path : Bytes) (o : Opened) : Prop where
  dh : o.handle.dh = none
  source : o.source = none
  devicePath : o.devicePath = path
  removable : o.removable = -1
  drivingType : o.drivingType = 0
  driverName : o.driverName = []

theorem basicOpened_fresh (path : Bytes) (b : Res BasicInfo) (id : IdInfo) : Fresh path (basicOpened path b id) := by
  cases b <;> exact ⟨rfl, rfl, rfl, rfl, rfl, rfl⟩

theorem openByFd_spec (n : Nat) (order : List (Bytes × Bytes) → List (Bytes × Bytes)) (fd : Nat) (path : Bytes)
    (env : Prog.Env FReq FRep) (hist : Prog.Trace FReq FRep) (o : Opened) (e : Option GoErr)
    (h : (OutT.run env hist (openByFd n order fd path)).1 = .ret (o, e)) :
    ∃ before, Fresh path before ∧
      DriversTried fd n 0 before o (OutT.run env hist (openByFd n order fd path)).2 := by
  unfold openByFd at h ⊢
  obtain ⟨b, h1, h2, h3⟩ := OutT.run_bind_cases h
  rw [h3]
  obtain ⟨x, h4, h5, h6⟩ := OutT.run_bind_cases h2
  rw [h6]
  obtain ⟨o', h7, h8, h9⟩ := OutT.run_bind_cases h5
  rw [h9]
  have ho : o' = o := by
    simp only [OutT.run_ret, Out.ret.injEq, Prod.mk.injEq] at h8
    exact h8.1
  subst ho
  have D := tryDrivers_spec fd env n 0 _ _ o' h7
  refine ⟨_, basicOpened_fresh path b x.1, ?_⟩
  obtain ⟨m1, m2, m3, m4, m5⟩ := probe_marks (OutT.asks_run (readBasicInfo_asks fd path) env hist)
  obtain ⟨p1, p2, p3, p4, p5⟩ := probe_marks
    (OutT.asks_run (getIdInfo_asks order path) env (hist ++ (OutT.run env hist (readBasicInfo fd path)).2))
  obtain ⟨A, hA⟩ : ∃ A, A = (OutT.run env hist (readBasicInfo fd path)).2 := ⟨_, rfl⟩
  rw [← hA] at m1 m2 m3 m4 m5 p1 p2 p3 p4 p5 D ⊢
  obtain ⟨B, hB⟩ : ∃ B, B = (OutT.run env (hist ++ A) (getIdInfo order path)).2 := ⟨_, rfl⟩
  rw [← hB] at p1 p2 p3 p4 p5 D ⊢
  obtain ⟨T, hT⟩ : ∃ T, T = (OutT.run env (hist ++ A ++ B) (tryDrivers fd n 0 (basicOpened path b x.1))).2 := ⟨_, rfl⟩
  rw [← hT] at D ⊢
  have et : tries (A ++ (B ++ (T ++ (OutT.run env (hist ++ A ++ B ++ T) (OutT.ret (o', (none : Option GoErr)))).2))) =
      tries T := by
    rw [tries_append, tries_append, tries_append, m1, p1]
    simp [tries]
  have ec : ∀ i, callsTo i (A ++ (B ++ (T ++ (OutT.run env (hist ++ A ++ B ++ T)
      (OutT.ret (o', (none : Option GoErr)))).2))) = callsTo i T := by
    intro i
    rw [callsTo_append, callsTo_append, callsTo_append, m2, p2]
    simp [callsTo]
  have el : lastAccepted (A ++ (B ++ (T ++ (OutT.run env (hist ++ A ++ B ++ T)
      (OutT.ret (o', (none : Option GoErr)))).2))) = lastAccepted T := by
    rw [lastAccepted, et]; rfl
  refine ⟨?_, ?_, ?_, ?_, ?_, ?_, ?_, ?_, ?_⟩
  · rw [et]; exact D.order
  · rw [el]; exact D.source
  · rw [el]; exact D.dh
  · rw [et]; intro t ht ha; rw [ec]; exact D.refused t ht ha
  · rw [et, el]; intro t ht ha; rw [ec]; exact D.called t ht ha
  · rw [el]; exact D.nothing
  · intro f
    rw [closings_append, closings_append, closings_append, m5, p5, D.noClose]
    rfl
  · refine ⟨?_, ?_⟩
    · rw [opens_append, opens_append, opens_append, m3, p3, D.noOpen.1]; rfl
    · rw [stats_append, stats_append, stats_append, m4, p4, D.noOpen.2]; rfl
  · intro k hk; rw [ec]; exact D.others k hk

/-- C67, failure: `OpenByPath` returns an error exactly when the device node cannot be opened; it then asks for nothing
else. -/
theorem open_by_path_error_iff (n : Nat) (order : List (Bytes × Bytes) → List (Bytes × Bytes)) (path : Bytes)
    (env : Prog.Env FReq FRep) (hist : Prog.Trace FReq FRep) (e : GoErr) :
    ((OutT.run env hist (openByPath n order path)).1 = .ret (.err e) ↔ (env hist (.openDev path)).err = some e) ∧
    ((env hist (.openDev path)).err = some e →
      (OutT.run env hist (openByPath n order path)).2 = [(.openDev path, env hist (.openDev path))]) := by
  unfold openByPath
  rw [OutT.run_ask_bind]
  obtain ⟨r, hr⟩ : ∃ r, r = env hist (.openDev path) := ⟨_, rfl⟩
  rw [← hr]
  simp only
  cases he : r.err with
  | some e' => simp
  | none =>
    refine ⟨⟨fun h => ?_, fun h => by simp at h⟩, fun h => by simp at h⟩
    obtain ⟨x, h1, h2, h3⟩ := OutT.run_bind_cases h
    have := OutT.returns_run (openByFd_returns n order r.fd path) env _ x h1
    obtain ⟨o, e2⟩ := x
    simp only at this
    subst this
    simp only [OutT.run_ret, Out.ret.injEq, reduceCtorEq] at h2

/-- C67, success: whatever the drivers answer, the handle that is returned has the last accepting driver, every driver was
tried in order, `Init` ran once on each accepting driver, and the descriptor was opened once and not closed. -/
theorem open_by_path_drivers (n : Nat) (order : List (Bytes × Bytes) → List (Bytes × Bytes)) (path : Bytes)
    (env : Prog.Env FReq FRep) (hist : Prog.Trace FReq FRep) (o : Opened)
    (h : (OutT.run env hist (openByPath n order path)).1 = .ret (.ok o)) :
    ∃ (before : Opened) (tr : Prog.Trace FReq FRep),
      (OutT.run env hist (openByPath n order path)).2 = (.openDev path, env hist (.openDev path)) :: tr ∧
      (env hist (.openDev path)).err = none ∧ Fresh path before ∧
      DriversTried (env hist (.openDev path)).fd n 0 before o tr := by
  unfold openByPath at h ⊢
  rw [OutT.run_ask_bind] at h ⊢
  obtain ⟨r, hr⟩ : ∃ r, r = env hist (.openDev path) := ⟨_, rfl⟩
  rw [← hr] at h ⊢
  simp only at h ⊢
  cases he : r.err with
  | some e' => simp [he] at h
  | none =>
    simp only [he] at h ⊢
    obtain ⟨x, h1, h2, h3⟩ := OutT.run_bind_cases h
    have hx := OutT.returns_run (openByFd_returns n order r.fd path) env _ x h1
    obtain ⟨o', e2⟩ := x
    simp only at hx
    subst hx
    simp only [OutT.run_ret, Out.ret.injEq, Res.ok.injEq] at h2
    subst h2
    obtain ⟨before, hf, D⟩ := openByFd_spec n order r.fd path env _ o' none h1
    refine ⟨before, _, ?_, trivial, hf, D⟩
    rw [h3]
    simp

/-- C67, the descriptor: after a successful open nothing has closed it; `Close` on the handle closes it once if some driver
accepted, and makes no call at all if none did, so the descriptor stays open. -/
theorem open_then_close (n : Nat) (order : List (Bytes × Bytes) → List (Bytes × Bytes)) (path : Bytes)
    (env : Prog.Env FReq FRep) (hist : Prog.Trace FReq FRep) (o : Opened)
    (h : (OutT.run env hist (openByPath n order path)).1 = .ret (.ok o)) (hist' : Prog.Trace FReq FRep) :
    (∀ fd, closings fd (OutT.run env hist (openByPath n order path)).2 = 0) ∧
    (lastAccepted (OutT.run env hist (openByPath n order path)).2 = none →
      (OutT.run env hist' o.close).2 = []) ∧
    (∀ t, lastAccepted (OutT.run env hist (openByPath n order path)).2 = some t →
      (OutT.run env hist' o.close).2 = [(.drv t.1 t.2.1 .close, env hist' (.drv t.1 t.2.1 .close))]) := by
  obtain ⟨before, tr, h1, h2, hf, D⟩ := open_by_path_drivers n order path env hist o h
  have hl : lastAccepted ((.openDev path, env hist (.openDev path)) :: tr) = lastAccepted tr := rfl
  refine ⟨?_, ?_, ?_⟩
  · intro fd
    rw [h1]
    exact D.noClose fd
  · rw [h1, hl]
    intro hn
    have hs := D.source
    have hd := D.dh
    rw [hn] at hs hd
    simp only [Option.map_none, Option.none_or, hf.source, hf.dh] at hs hd
    unfold Opened.close
    rw [hs]
    unfold Handle.close
    simp only [hd]
    rfl
  · rw [h1, hl]
    intro t ht
    have hs := D.source
    have hd := D.dh
    rw [ht] at hs hd
    simp only [Option.map_some, Option.some_or] at hs hd
    unfold Opened.close
    rw [hs]
    unfold Handle.close
    simp only [hd]
    rfl

/-- A machine with one device node: driver 0 accepts and does not support security commands, driver 1 refuses,
driver 2 accepts. -/
def sampleMachine : Prog.Env FReq FRep := fun _ q =>
  match q with
  | .openDev p => if p = ascii "/dev/sda" then { fd := 7 } else { err := some (.errno 2) }
  | .tryDriver 1 _ => { err := some (.errno 25) }
  | .drv i _ .drivingType => { drv := { num := 2 - i / 2 } }
  | .drv _ _ (.sec ..) => { drv := { err := some (.msg "not supported") } }
  | .readDir p => if p = ascii "/sys/block" then
      { names := [ascii "loop0", ascii "sda", ascii "sr0", ascii "sdb", ascii "nod"] } else { err := some (.errno 2) }
  | .stat p => if p = ascii "/dev/nod" then { err := some (.errno 2) } else { num := 0o060660 }
  | _ => {}

/-- The hypotheses of the theorems about opening are met: three drivers, the third wins; with the second alone no driver
accepts. -/
example :
    (match (OutT.run sampleMachine [] (openByPath 3 id (ascii "/dev/sda"))).1 with
      | .ret (.ok o) => some (o.source, o.drivingType, o.devicePath)
      | _ => none) = some (some (2, 7), 1, ascii "/dev/sda") ∧
    (match (OutT.run sampleMachine [] (openByPath 3 id (ascii "/dev/sdb"))).1 with
      | .ret (.err e) => some e
      | _ => none) = some (.errno 2) ∧
    (match (OutT.run (fun h q => match q with
        | .tryDriver .. => { err := some (.errno 25) }
        | q => sampleMachine h q) [] (openByPath 3 id (ascii "/dev/sda"))).1 with
      | .ret (.ok o) => some (o.source, o.handle.dh)
      | _ => none) = some (none, none) := by
  decide +kernel

theorem contains_iff (s sub : Bytes) : contains s sub = true ↔ Occurs sub s := by
  induction s with
  | nil =>
    rw [contains, List.isPrefixOf_iff_prefix, List.prefix_nil]
    constructor
    · rintro rfl; exact ⟨[], [], rfl⟩
    · rintro ⟨a, b, h⟩
      have := congrArg List.length h
      simp at this
      exact List.length_eq_zero_iff.mp (by omega)
  | cons x xs ih =>
    rw [contains, Bool.or_eq_true, ih, List.isPrefixOf_iff_prefix]
    constructor
    · rintro (⟨b, hb⟩ | ⟨a, b, h⟩)
      · exact ⟨[], b, by rw [← hb]; rfl⟩
      · exact ⟨x :: a, b, by rw [h]; rfl⟩
    · rintro ⟨a, b, h⟩
      cases a with
      | nil => exact Or.inl ⟨b, h.symm⟩
      | cons y a =>
        simp only [List.cons_append, List.cons.injEq] at h
        exact Or.inr ⟨a, b, h.2⟩

instance (sub s : Bytes) : Decidable (Occurs sub s) := decidable_of_iff _ (contains_iff s sub)

theorem isBlockMode_iff (m : BitVec 64) : isBlockMode m = true ↔ IsBlockDevice m := by
  have h1 : (m &&& 0o170000#64).toNat = m.toNat / 4096 % 16 * 4096 := by
    rw [BitVec.toNat_and]
    have e : (0o170000#64 : BitVec 64).toNat = (2 ^ 4 - 1) <<< 12 := rfl
    rw [e]
    have : m.toNat &&& ((2 ^ 4 - 1) <<< 12) = ((m.toNat >>> 12) &&& (2 ^ 4 - 1)) <<< 12 := by
      apply Nat.eq_of_testBit_eq
      intro i
      simp only [Nat.testBit_and, Nat.testBit_shiftLeft, Nat.testBit_shiftRight, ge_iff_le]
      by_cases hi : 12 ≤ i
      · rw [show 12 + (i - 12) = i by omega]; simp [hi]
      · simp [hi]
    rw [this, Nat.and_two_pow_sub_one_eq_mod, Nat.shiftLeft_eq, Nat.shiftRight_eq_div_pow]
  unfold isBlockMode IsBlockDevice
  rw [beq_iff_eq]
  constructor
  · intro h
    rw [h] at h1
    simp at h1
    omega
  · intro h
    apply BitVec.eq_of_toNat_eq
    rw [h1, h]
    rfl

/-- The handle has a driver exactly when it knows which driver that is. -/
def Opened.Consistent (o : Opened) : Prop := o.handle.dh.isSome = o.source.isSome

theorem close_run (o : Opened) (ho : o.Consistent) (env : Prog.Env FReq FRep) (hist : Prog.Trace FReq FRep) :
    ∃ (o' : Opened) (tr : Prog.Trace FReq FRep), OutT.run env hist o.close = (.ret o', tr) ∧
      tr.map (·.1) = (o.source.map (fun s => FReq.drv s.1 s.2 .close)).toList := by
  unfold Opened.Consistent at ho
  unfold Opened.close Handle.close
  cases hs : o.source with
  | none =>
    rw [hs] at ho
    simp only [Option.isSome_none, Option.isSome_eq_false_iff, Option.isNone_iff_eq_none] at ho
    simp only [ho]
    exact ⟨_, _, rfl, rfl⟩
  | some s =>
    obtain ⟨i, fd⟩ := s
    rw [hs] at ho
    simp only [Option.isSome_some] at ho
    obtain ⟨d, hd⟩ := Option.isSome_iff_exists.mp ho
    simp only [hd]
    exact ⟨_, _, rfl, rfl⟩

theorem deferredClose_run (o : Opened) (ho : o.Consistent) (env : Prog.Env FReq FRep) (hist : Prog.Trace FReq FRep) :
    ∃ tr : Prog.Trace FReq FRep, OutT.run env hist o.deferredClose = (.ret (), tr) ∧
      tr.map (·.1) = (o.source.map (fun s => FReq.drv s.1 s.2 .close)).toList := by
  obtain ⟨o', tr, h1, h2⟩ := close_run o ho env hist
  refine ⟨tr, ?_, h2⟩
  unfold Opened.deferredClose
  rw [OutT.run_bind_ret env hist h1]
  simp

theorem closeCalls_append (a b : Prog.Trace FReq FRep) : closeCalls (a ++ b) = closeCalls a ++ closeCalls b := by
  simp [closeCalls, List.filterMap_append]

theorem closeCalls_of_closings {tr : Prog.Trace FReq FRep} (h : ∀ f, closings f tr = 0) : closeCalls tr = [] := by
  unfold closeCalls
  rw [List.filterMap_eq_nil_iff]
  rintro ⟨q, r⟩ hx
  cases q with
  | drv i fd d =>
    cases d with
    | close =>
      exfalso
      have := h fd
      unfold closings at this
      rw [List.length_eq_zero_iff, List.filter_eq_nil_iff] at this
      exact this _ hx (by simp)
    | _ => rfl
  | _ => rfl

theorem only_closes {tr : Prog.Trace FReq FRep} {l : List (Nat × Nat)}
    (h : tr.map (·.1) = l.map (fun s => FReq.drv s.1 s.2 .close)) :
    opens tr = [] ∧ stats tr = [] ∧ closeCalls tr = l ∧ tries tr = [] := by
  induction tr generalizing l with
  | nil => cases l with
    | nil => exact ⟨rfl, rfl, rfl, rfl⟩
    | cons a l => simp at h
  | cons x tr ih =>
    cases l with
    | nil => simp at h
    | cons a l =>
      simp only [List.map_cons, List.cons.injEq] at h
      obtain ⟨h1, h2, h3, h4⟩ := ih h.2
      obtain ⟨q, r⟩ := x
      obtain ⟨i, fd⟩ := a
      simp only at h
      obtain ⟨rfl, _⟩ := h
      refine ⟨h1, h2, ?_, h4⟩
      show (i, fd) :: closeCalls tr = _
      rw [h3]

/-- What the enumeration does with the directory `names`, read off the trace and the records. -/
structure Enumerated (names : List Bytes) (os : List Opened) (tr : Prog.Trace FReq FRep) : Prop where
  /-- every entry whose name does not contain "loop" is looked at, in directory order -/
  looked : (stats tr).map (·.1) =
    (names.filter (fun nm => ¬ Occurs (ascii "loop") nm)).map (fun nm => ascii "/dev/" ++ nm)
  /-- of these, exactly the block devices whose name does not contain "sr" are opened, in that order -/
  opened : (opens tr).map (·.1) =
    (((names.filter (fun nm => ¬ Occurs (ascii "loop") nm)).zip ((stats tr).map (·.2))).filter
      (fun x => x.2.err = none ∧ IsBlockDevice x.2.num ∧ ¬ Occurs (ascii "sr") x.1)).map
        (fun x => ascii "/dev/" ++ x.1)
  /-- one record per device that could be opened, in that order -/
  records : os.map (·.devicePath) = ((opens tr).filter (fun x => x.2.err = none)).map (·.1)
  /-- a record's driver works on the descriptor of its device -/
  owners : ∀ p ∈ os.zip ((opens tr).filter (fun x => x.2.err = none)), ∀ s, p.1.source = some s → s.2 = p.2.2.fd

theorem devicePath_asks (fd n : Nat) : ∀ i o, OutT.Returns (fun x => x.devicePath = o.devicePath) (tryDrivers fd n i o) := by
  induction n with
  | zero => intro i o; exact OutT.returns_ret rfl
  | succ n ih =>
    intro i o
    unfold tryDrivers
    refine OutT.returns_bind (OutT.returns_any _) (fun r _ => ?_)
    dsimp only
    split
    · exact ih _ _
    · refine OutT.returns_bind (OutT.returns_any _) (fun ty _ => ?_)
      refine OutT.returns_bind (OutT.returns_any _) (fun nm _ => ?_)
      refine OutT.returns_bind (OutT.returns_any _) (fun x _ => ?_)
      have := ih (i + 1) { o with handle := x.1, source := some (i, fd), drivingType := ty, driverName := nm }
      exact this

theorem openByPath_devicePath (n : Nat) (order : List (Bytes × Bytes) → List (Bytes × Bytes)) (path : Bytes) :
    OutT.Returns (fun x => ∀ o, x = Res.ok o → o.devicePath = path) (openByPath n order path) := by
  unfold openByPath
  refine OutT.returns_bind (OutT.returns_any _) (fun r _ => ?_)
  dsimp only
  split
  · exact OutT.returns_ret (by intro o h; simp at h)
  · refine OutT.returns_bind (B := fun x => x.1.devicePath = path) ?_ (fun x hx => ?_)
    · unfold openByFd
      refine OutT.returns_bind (OutT.returns_any _) (fun b _ => ?_)
      refine OutT.returns_bind (OutT.returns_any _) (fun x _ => ?_)
      refine OutT.returns_bind (devicePath_asks ..) (fun o ho => OutT.returns_ret ?_)
      rw [ho]
      exact (basicOpened_fresh path b x.1).devicePath
    · split
      · exact OutT.returns_ret (by intro o h; simp only [Res.ok.injEq] at h; rw [← h]; exact hx)
      · exact OutT.returns_bind (OutT.returns_any _) (fun _ _ => OutT.returns_ret (by intro o h; simp at h))

theorem openByPath_no_panic_value (n : Nat) (order : List (Bytes × Bytes) → List (Bytes × Bytes)) (path : Bytes) :
    OutT.Returns (fun x => x ≠ Res.panic) (openByPath n order path) := by
  unfold openByPath
  refine OutT.returns_bind (OutT.returns_any _) (fun r _ => ?_)
  dsimp only
  split
  · exact OutT.returns_ret (by simp)
  · refine OutT.returns_bind (OutT.returns_any _) (fun x _ => ?_)
    split
    · exact OutT.returns_ret (by simp)
    · exact OutT.returns_bind (OutT.returns_any _) (fun _ _ => OutT.returns_ret (by simp))

theorem stat_bool (s : FRep) : (s.err = none && isBlockMode s.num) = decide (s.err = none ∧ IsBlockDevice s.num) := by
  rw [Bool.eq_iff_iff]
  simp [isBlockMode_iff]

theorem enumerated_loop {name : Bytes} {rest : List Bytes} {os : List Opened} {T : Prog.Trace FReq FRep}
    (hO : Occurs (ascii "loop") name) (h : Enumerated rest os T) : Enumerated (name :: rest) os T := by
  refine ⟨?_, ?_, h.records, h.owners⟩
  · rw [h.looked, List.filter_cons, if_neg (by simp [hO])]
  · rw [h.opened, List.filter_cons, if_neg (by simp [hO])]

theorem enumerated_skip {name : Bytes} {rest : List Bytes} {os : List Opened} {T : Prog.Trace FReq FRep} {s : FRep}
    (hO : ¬ Occurs (ascii "loop") name) (hno : ¬ (s.err = none ∧ IsBlockDevice s.num ∧ ¬ Occurs (ascii "sr") name))
    (h : Enumerated rest os T) : Enumerated (name :: rest) os ((.stat (ascii "/dev/" ++ name), s) :: T) := by
  have hfil : (name :: rest).filter (fun nm => ¬ Occurs (ascii "loop") nm) =
      name :: rest.filter (fun nm => ¬ Occurs (ascii "loop") nm) := by
    rw [List.filter_cons, if_pos (by simp [hO])]
  refine ⟨?_, ?_, h.records, h.owners⟩
  · rw [hfil, List.map_cons, ← h.looked]; rfl
  · show (opens _).map _ = _
    rw [hfil]
    show _ = (((name :: _).zip (s :: _)).filter _).map _
    rw [List.zip_cons_cons, List.filter_cons, if_neg (by simpa using hno)]
    exact h.opened

theorem enumerated_open {name : Bytes} {rest : List Bytes} {os more : List Opened} {tr T : Prog.Trace FReq FRep} {s r : FRep}
    (hO : ¬ Occurs (ascii "loop") name) (hyes : s.err = none ∧ IsBlockDevice s.num ∧ ¬ Occurs (ascii "sr") name)
    (hst : stats tr = []) (hop : opens tr = [])
    (hmore : more.map (·.devicePath) = if r.err = none then [ascii "/dev/" ++ name] else [])
    (hown : ∀ o ∈ more, ∀ s, o.source = some s → s.2 = r.fd)
    (h : Enumerated rest os T) :
    Enumerated (name :: rest) (more ++ os)
      ((.stat (ascii "/dev/" ++ name), s) :: (.openDev (ascii "/dev/" ++ name), r) :: (tr ++ T)) := by
  have hfil : (name :: rest).filter (fun nm => ¬ Occurs (ascii "loop") nm) =
      name :: rest.filter (fun nm => ¬ Occurs (ascii "loop") nm) := by
    rw [List.filter_cons, if_pos (by simp [hO])]
  have hst' : stats ((.stat (ascii "/dev/" ++ name), s) :: (.openDev (ascii "/dev/" ++ name), r) :: (tr ++ T)) =
      (ascii "/dev/" ++ name, s) :: stats T := by
    show _ :: stats (tr ++ T) = _
    rw [stats_append, hst]; rfl
  have hop' : opens ((.stat (ascii "/dev/" ++ name), s) :: (.openDev (ascii "/dev/" ++ name), r) :: (tr ++ T)) =
      (ascii "/dev/" ++ name, r) :: opens T := by
    show _ :: opens (tr ++ T) = _
    rw [opens_append, hop]; rfl
  refine ⟨?_, ?_, ?_, ?_⟩
  · rw [hst', hfil, List.map_cons, h.looked, List.map_cons]
  · rw [hst', hop', hfil, List.map_cons, List.map_cons]
    rw [List.zip_cons_cons, List.filter_cons, if_pos (by simpa using hyes), List.map_cons]
    rw [h.opened]
  · rw [hop', List.filter_cons, List.map_append, hmore, h.records]
    by_cases hr : r.err = none
    · simp [hr]
    · simp [hr]
  · rw [hop', List.filter_cons]
    by_cases hr : r.err = none
    · rw [if_pos hr] at hmore
      rw [if_pos (by simpa using hr)]
      obtain ⟨o, rfl⟩ : ∃ o, more = [o] := by
        rw [← List.length_eq_one_iff, ← List.length_map (f := (·.devicePath)), hmore]
        rfl
      intro p hp
      rcases List.mem_cons.1 hp with rfl | hp
      · exact hown o (by simp)
      · exact h.owners p hp
    · rw [if_neg hr, List.map_eq_nil_iff] at hmore
      rw [if_neg (by simpa using hr), hmore]
      exact h.owners

/-- The enumeration of `names` ended in the middle: opening `name`, after `before` gave `os`, panicked. -/
structure BrokenOff (n : Nat) (order : List (Bytes × Bytes) → List (Bytes × Bytes)) (env : Prog.Env FReq FRep)
    (hist : Prog.Trace FReq FRep) (names before : List Bytes) (name : Bytes) (os : List Opened)
    (tr : Prog.Trace FReq FRep) : Prop where
  entries : ∃ after, names = before ++ name :: after
  drive : ¬ Occurs (ascii "loop") name ∧ ¬ Occurs (ascii "sr") name
  run : ∃ T s U, tr = T ++ (.stat (ascii "/dev/" ++ name), s) :: U ∧ Enumerated before os T ∧
    s.err = none ∧ IsBlockDevice s.num ∧
    OutT.run env (hist ++ T ++ [(.stat (ascii "/dev/" ++ name), s)]) (openByPath n order (ascii "/dev/" ++ name)) = (.panic, U)

theorem enumLoop_spec (n : Nat) (order : List (Bytes × Bytes) → List (Bytes × Bytes)) (env : Prog.Env FReq FRep)
    (names : List Bytes) :
    ∀ (hist t : Prog.Trace FReq FRep) (x : Out (List Opened)), OutT.run env hist (enumLoop n order names) = (x, t) →
    x ≠ .running →
    ∃ (T C : Prog.Trace FReq FRep) (os : List Opened), t = T ++ C ∧ (∀ o ∈ os, o.Consistent) ∧
      C.map (·.1) = (os.filterMap (·.source)).reverse.map (fun s => FReq.drv s.1 s.2 .close) ∧
      ((x = .ret os ∧ Enumerated names os T ∧ ∀ f, closings f T = 0) ∨
       (x = .panic ∧ ∃ before name, BrokenOff n order env hist names before name os T)) := by
  induction names with
  | nil =>
    intro hist t x h _
    simp only [enumLoop, OutT.run_ret, Prod.mk.injEq] at h
    obtain ⟨rfl, rfl⟩ := h
    exact ⟨[], [], [], rfl, by simp, rfl, .inl ⟨rfl, ⟨rfl, rfl, rfl, by simp⟩, fun _ => rfl⟩⟩
  | cons name rest ih =>
    intro hist t x h hx
    unfold enumLoop at h
    by_cases hl : contains name (ascii "loop") = true
    · rw [if_pos hl] at h
      have hO : Occurs (ascii "loop") name := (contains_iff _ _).mp hl
      obtain ⟨T, C, os, h1, h2, h3, h4⟩ := ih hist t x h hx
      refine ⟨T, C, os, h1, h2, h3, ?_⟩
      rcases h4 with ⟨a, b, c⟩ | ⟨a, before, nm, b⟩
      · exact .inl ⟨a, enumerated_loop hO b, c⟩
      · obtain ⟨⟨after, b1⟩, b2, T', s, U, b3, b4, b5⟩ := b
        exact .inr ⟨a, name :: before, nm, ⟨⟨after, by rw [b1]; rfl⟩, b2, T', s, U, b3, enumerated_loop hO b4, b5⟩⟩
    · rw [if_neg hl] at h
      have hO : ¬ Occurs (ascii "loop") name := fun hh => hl ((contains_iff _ _).mpr hh)
      rw [OutT.run_ask_bind] at h
      obtain ⟨s, hs⟩ : ∃ s, s = env hist (.stat (ascii "/dev/" ++ name)) := ⟨_, rfl⟩
      rw [← hs] at h
      obtain ⟨H, hH⟩ : ∃ H, H = hist ++ [(FReq.stat (ascii "/dev/" ++ name), s)] := ⟨_, rfl⟩
      rw [← hH] at h
      -- the rest after a prefix `P` of exchanges that gave `more`
      have step : ∀ (x0 : Out (List Opened)) (P : Prog.Trace FReq FRep) (more os : List Opened) (T C : Prog.Trace FReq FRep)
          (hP : ∀ names os T, Enumerated names os T → Enumerated (name :: names) (more ++ os)
            ((.stat (ascii "/dev/" ++ name), s) :: (P ++ T)))
          (hc : ∀ f, closings f P = 0) (h4 : (x0 = .ret os ∧ Enumerated rest os T ∧ ∀ f, closings f T = 0) ∨
            (x0 = .panic ∧ ∃ before nm, BrokenOff n order env (H ++ P) rest before nm os T)) (y : Out (List Opened))
          (hy : x0 = .ret os → y = .ret (more ++ os)) (hy' : x0 = .panic → y = .panic),
          (y = .ret (more ++ os) ∧ Enumerated (name :: rest) (more ++ os) ((.stat (ascii "/dev/" ++ name), s) :: (P ++ T)) ∧
            ∀ f, closings f ((FReq.stat (ascii "/dev/" ++ name), s) :: (P ++ T)) = 0) ∨
          (y = .panic ∧ ∃ before nm, BrokenOff n order env hist (name :: rest) before nm (more ++ os)
            ((.stat (ascii "/dev/" ++ name), s) :: (P ++ T))) := by
        intro x0 P more os T C hP hc h4 y hy hy'
        rcases h4 with ⟨a, b, c⟩ | ⟨a, before, nm, b⟩
        · refine .inl ⟨hy a, hP _ _ _ b, fun f => ?_⟩
          show closings f (P ++ T) = 0
          rw [closings_append, hc, c]
        · obtain ⟨⟨after, b1⟩, b2, T', s', U, b3, b4, b5⟩ := b
          refine .inr ⟨hy' a, name :: before, nm, ⟨⟨after, by rw [b1]; rfl⟩, b2,
            (.stat (ascii "/dev/" ++ name), s) :: (P ++ T'), s', U, ?_, hP _ _ _ b4, ?_⟩⟩
          · rw [b3]; simp
          · rw [hH] at b5
            simpa using b5
      have skip : ∀ (hno : ¬ (s.err = none ∧ IsBlockDevice s.num ∧ ¬ Occurs (ascii "sr") name)),
          ((OutT.run env H (enumLoop n order rest)).1,
            (FReq.stat (ascii "/dev/" ++ name), s) :: (OutT.run env H (enumLoop n order rest)).2) = (x, t) →
          ∃ (T C : Prog.Trace FReq FRep) (os : List Opened), t = T ++ C ∧ (∀ o ∈ os, o.Consistent) ∧
            C.map (·.1) = (os.filterMap (·.source)).reverse.map (fun s => FReq.drv s.1 s.2 .close) ∧
            ((x = .ret os ∧ Enumerated (name :: rest) os T ∧ ∀ f, closings f T = 0) ∨
             (x = .panic ∧ ∃ before nm, BrokenOff n order env hist (name :: rest) before nm os T)) := by
        intro hno hh
        rcases hr : OutT.run env H (enumLoop n order rest) with ⟨y, u⟩
        rw [hr] at hh
        obtain ⟨rfl, rfl⟩ := Prod.mk.inj hh
        obtain ⟨T, C, os, h1, h2, h3, h4⟩ := ih H u y hr hx
        refine ⟨(.stat (ascii "/dev/" ++ name), s) :: T, C, os, by rw [h1]; rfl, h2, h3, ?_⟩
        have := step y [] [] os T C (fun _ _ _ he => enumerated_skip hO hno he) (fun _ => rfl) (by simpa using h4) y id id
        simpa using this
      by_cases hb : s.err = none ∧ IsBlockDevice s.num
      · rw [stat_bool, if_pos (by simpa using hb)] at h
        by_cases hsr : contains name (ascii "sr") = true
        · rw [if_pos hsr] at h
          exact skip (fun hh => hh.2.2 ((contains_iff _ _).mp hsr)) h
        · rw [if_neg hsr] at h
          have hOs : ¬ Occurs (ascii "sr") name := fun hh => hsr ((contains_iff _ _).mpr hh)
          rw [OutT.run_bind] at h
          rcases hP : OutT.run env H (openByPath n order (ascii "/dev/" ++ name)) with ⟨y, P⟩
          rw [hP] at h
          cases y with
          | running =>
            simp only [Prod.mk.injEq] at h
            exact absurd h.1.symm hx
          | panic =>
            simp only [Prod.mk.injEq] at h
            obtain ⟨rfl, rfl⟩ := h
            refine ⟨_, [], [], (List.append_nil _).symm, by simp, rfl, .inr ⟨rfl, [], name, ⟨⟨rest, rfl⟩, ⟨hO, hOs⟩, [], s, P, rfl,
              ⟨rfl, rfl, rfl, by simp⟩, hb.1, hb.2, ?_⟩⟩⟩
            rw [List.append_nil, ← hH]
            exact hP
          | ret y =>
            have g1 : (OutT.run env H (openByPath n order (ascii "/dev/" ++ name))).1 = .ret y := by rw [hP]
            cases y with
            | panic => exact absurd rfl (OutT.returns_run (openByPath_no_panic_value n order _) env H _ g1)
            | err e =>
              simp only at h
              have he := (open_by_path_error_iff n order (ascii "/dev/" ++ name) env H e)
              have he1 := he.1.mp g1
              have he2 := he.2 he1
              rw [hP] at he2
              simp only at he2
              rcases hr : OutT.run env (H ++ P) (enumLoop n order rest) with ⟨z, u⟩
              rw [hr] at h
              obtain ⟨rfl, rfl⟩ := Prod.mk.inj h
              obtain ⟨T, C, os, h1, h2, h3, h4⟩ := ih (H ++ P) u z hr hx
              refine ⟨(.stat (ascii "/dev/" ++ name), s) :: (P ++ T), C, os, by rw [h1]; simp, h2, h3, ?_⟩
              have := step z P [] os T C (fun _ _ _ h => by
                rw [he2]
                exact enumerated_open (tr := []) (more := []) hO ⟨hb.1, hb.2, hOs⟩ rfl rfl (by simp [he1]) (by simp) h)
                (fun f => by rw [he2]; rfl) h4 z id id
              simpa using this
            | ok o =>
              simp only at h
              obtain ⟨before, tr, q1, q2, q3, D⟩ := open_by_path_drivers n order _ env H o g1
              have hpath := OutT.returns_run (openByPath_devicePath n order (ascii "/dev/" ++ name)) env H _ g1 o rfl
              rw [hP] at q1
              simp only at q1
              have hcons : o.Consistent := by
                unfold Opened.Consistent
                rw [D.dh, D.source, q3.dh, q3.source]
                cases lastAccepted tr <;> rfl
              have hown : ∀ s, o.source = some s → s.2 = (env H (.openDev (ascii "/dev/" ++ name))).fd := by
                intro s hs
                rw [D.source, q3.source, Option.or_none, Option.map_eq_some_iff] at hs
                obtain ⟨t, ht, rfl⟩ := hs
                exact (tries_mem_range D.order (List.mem_filter.1 (List.mem_of_getLast? ht)).1).2.2
              rcases hr : OutT.run env (H ++ P) (enumLoop n order rest) with ⟨z, u⟩
              have fin : ∀ (T C c : Prog.Trace FReq FRep) (os : List Opened) (hu : u = T ++ C) (h2 : ∀ o ∈ os, o.Consistent)
                  (h3 : C.map (·.1) = (os.filterMap (·.source)).reverse.map (fun s => FReq.drv s.1 s.2 .close))
                  (hc : c.map (·.1) = (o.source.map (fun s => FReq.drv s.1 s.2 .close)).toList),
                  (.stat (ascii "/dev/" ++ name), s) :: (P ++ (u ++ c)) =
                    (.stat (ascii "/dev/" ++ name), s) :: (P ++ T) ++ (C ++ c) ∧ (∀ o' ∈ [o] ++ os, o'.Consistent) ∧
                  (C ++ c).map (·.1) =
                    (([o] ++ os).filterMap (·.source)).reverse.map (fun s => FReq.drv s.1 s.2 .close) := by
                intro T C c os hu h2 h3 hc
                refine ⟨by rw [hu]; simp, ?_, ?_⟩
                · intro o' ho'
                  simp only [List.singleton_append, List.mem_cons] at ho'
                  rcases ho' with rfl | ho'
                  · exact hcons
                  · exact h2 _ ho'
                · rw [List.map_append, h3, hc, List.singleton_append, List.filterMap_cons]
                  cases o.source <;> simp
              have hstep := fun (T C : Prog.Trace FReq FRep) (os : List Opened) x0 h4 y hy hy' =>
                step x0 P [o] os T C (fun _ _ _ h => by
                  rw [q1]
                  exact enumerated_open (more := [o]) hO ⟨hb.1, hb.2, hOs⟩ D.noOpen.2 D.noOpen.1 (by simp [q2, hpath])
                    (by simpa using hown) h)
                  (fun f => by rw [q1]; exact D.noClose f) h4 y hy hy'
              obtain ⟨c, hc1, hc2⟩ := deferredClose_run o hcons env (H ++ P ++ u)
              cases z with
              | running =>
                rw [OutT.run_bind, OutT.run_defer_running env (H ++ P) hr] at h
                simp only [Prod.mk.injEq] at h
                exact absurd h.1.symm hx
              | panic =>
                rw [OutT.run_bind, OutT.run_defer_panic env (H ++ P) hr hc1] at h
                simp only [Prod.mk.injEq] at h
                obtain ⟨rfl, rfl⟩ := h
                obtain ⟨T, C, os, h1, h2, h3, h4⟩ := ih (H ++ P) u .panic hr (by simp)
                obtain ⟨f1, f2, f3⟩ := fin T C c os h1 h2 h3 hc2
                exact ⟨_, C ++ c, [o] ++ os, f1, f2, f3, hstep T C os .panic h4 .panic (fun h => by cases h) id⟩
              | ret z =>
                rw [OutT.run_bind, OutT.run_defer_ret env (H ++ P) hr hc1] at h
                simp only [OutT.run_ret, List.append_nil, Prod.mk.injEq] at h
                obtain ⟨rfl, rfl⟩ := h
                obtain ⟨T, C, os, h1, h2, h3, h4⟩ := ih (H ++ P) u (.ret z) hr (by simp)
                obtain ⟨f1, f2, f3⟩ := fin T C c os h1 h2 h3 hc2
                refine ⟨_, C ++ c, [o] ++ os, f1, f2, f3, hstep T C os (.ret z) h4 _ (fun h => ?_) (fun h => by cases h)⟩
                cases h
                rfl
      · rw [stat_bool, if_neg (by simpa using hb)] at h
        exact skip (fun hh => hb ⟨hh.1, hh.2.1⟩) h

/-- C68: `EnumDrives` looks at the directory entries without "loop" in their name, opens exactly those that are block
devices and have no "sr" in their name, in directory order, returns one record per device that could be opened, and closes
the drivers of the opened drives afterwards, the last first. An unreadable directory is the only error. -/
theorem enum_drives (n : Nat) (order : List (Bytes × Bytes) → List (Bytes × Bytes)) (env : Prog.Env FReq FRep)
    (hist : Prog.Trace FReq FRep) :
    (∀ e, (env hist (.readDir (ascii "/sys/block"))).err = some e →
      OutT.run env hist (enumDrives n order) = (.ret (.err (.msg "open /sys/block failed")),
        [(.readDir (ascii "/sys/block"), env hist (.readDir (ascii "/sys/block")))])) ∧
    ((env hist (.readDir (ascii "/sys/block"))).err = none →
      (∀ e, (OutT.run env hist (enumDrives n order)).1 ≠ .ret (.err e)) ∧
      ∀ os, (OutT.run env hist (enumDrives n order)).1 = .ret (.ok os) →
        Enumerated (env hist (.readDir (ascii "/sys/block"))).names os (OutT.run env hist (enumDrives n order)).2 ∧
        closeCalls (OutT.run env hist (enumDrives n order)).2 = (os.filterMap (·.source)).reverse ∧
        ∀ o ∈ os, o.Consistent) := by
  unfold enumDrives
  rw [OutT.run_ask_bind]
  obtain ⟨d, hd⟩ : ∃ d, d = env hist (.readDir (ascii "/sys/block")) := ⟨_, rfl⟩
  rw [← hd]
  simp only
  refine ⟨fun e he => by simp [he], fun he => ?_⟩
  simp only [he]
  rw [OutT.run_bind]
  rcases hr : OutT.run env (hist ++ [(FReq.readDir (ascii "/sys/block"), d)]) (enumLoop n order d.names) with ⟨x, t⟩
  refine ⟨?_, ?_⟩
  · intro e h
    cases x <;> simp at h
  · intro os h
    cases x with
    | panic => simp at h
    | running => simp at h
    | ret os' =>
      simp only [OutT.run_ret, Out.ret.injEq, Res.ok.injEq, List.append_nil] at h ⊢
      subst h
      obtain ⟨T, C, os, rfl, h2, h3, h4⟩ := enumLoop_spec n order env d.names _ t _ hr (by simp)
      rcases h4 with ⟨a, g3, g4⟩ | ⟨a, -⟩
      · cases a
        obtain ⟨o1, o2, o3, _⟩ := only_closes h3
        have e1 : stats ((FReq.readDir (ascii "/sys/block"), d) :: (T ++ C)) = stats T := by
          show stats (T ++ C) = _
          rw [stats_append, o2, List.append_nil]
        have e2 : opens ((FReq.readDir (ascii "/sys/block"), d) :: (T ++ C)) = opens T := by
          show opens (T ++ C) = _
          rw [opens_append, o1, List.append_nil]
        refine ⟨⟨?_, ?_, ?_, ?_⟩, ?_, h2⟩
        · rw [e1]; exact g3.looked
        · rw [e1, e2]; exact g3.opened
        · rw [e2]; exact g3.records
        · rw [e2]; exact g3.owners
        · show closeCalls (T ++ C) = _
          rw [closeCalls_append, closeCalls_of_closings g4, o3]
          rfl
      · cases a

/-- C113: if the enumeration panics, it does so while opening a drive. The drives opened before are closed, each once and
the last first, before the panic goes on. -/
theorem enum_drives_panic (n : Nat) (order : List (Bytes × Bytes) → List (Bytes × Bytes)) (env : Prog.Env FReq FRep)
    (hist t : Prog.Trace FReq FRep) (hrun : OutT.run env hist (enumDrives n order) = (.panic, t)) :
    ∃ (d : FRep) (T C : Prog.Trace FReq FRep) (os : List Opened) (before : List Bytes) (name : Bytes),
      t = (.readDir (ascii "/sys/block"), d) :: (T ++ C) ∧
      BrokenOff n order env (hist ++ [(.readDir (ascii "/sys/block"), d)]) d.names before name os T ∧
      C.map (·.1) = (os.filterMap (·.source)).reverse.map (fun s => FReq.drv s.1 s.2 .close) := by
  unfold enumDrives at hrun
  rw [OutT.run_ask_bind] at hrun
  obtain ⟨d, hd⟩ : ∃ d, d = env hist (.readDir (ascii "/sys/block")) := ⟨_, rfl⟩
  rw [← hd] at hrun
  cases he : d.err with
  | some e => simp [he] at hrun
  | none =>
    simp only [he] at hrun
    rw [OutT.run_bind] at hrun
    rcases hr : OutT.run env (hist ++ [(FReq.readDir (ascii "/sys/block"), d)]) (enumLoop n order d.names) with ⟨x, u⟩
    rw [hr] at hrun
    cases x with
    | running => simp at hrun
    | ret a => simp at hrun
    | panic =>
      simp only [Prod.mk.injEq, true_and] at hrun
      obtain ⟨T, C, os, h1, h2, h3, h4⟩ := enumLoop_spec n order env d.names _ u _ hr (by simp)
      rcases h4 with ⟨a, -⟩ | ⟨-, before, name, hb⟩
      · cases a
      · exact ⟨d, T, C, os, before, name, by rw [← hrun, h1], hb, h3⟩

/-- The sample machine: of five entries one is a loop device, one cannot be looked at, one is an optical drive, one cannot
be opened; one record is left, and its driver is closed. -/
example :
    (match (OutT.run sampleMachine [] (enumDrives 3 id)).1 with
      | .ret (.ok os) => some (os.map (·.devicePath))
      | _ => none) = some [ascii "/dev/sda"] ∧
    (opens (OutT.run sampleMachine [] (enumDrives 3 id)).2).map (·.1) = [ascii "/dev/sda", ascii "/dev/sdb"] ∧
    closeCalls (OutT.run sampleMachine [] (enumDrives 3 id)).2 = [(2, 7)] := by
  decide +kernel

/-- C113: the second drive answers the discovery with a descriptor that overruns its buffer; the first drive is closed. -/
example :
    (match OutT.run (fun h q => match q with
        | .openDev p => if p = ascii "/dev/sda" then { fd := 7 } else { fd := 8 }
        | .drv _ 8 (.sec ..) => { drv := { data := [0, 0, 8, 0] ++ List.replicate 2044 0xff } }
        | q => sampleMachine h q) [] (enumDrives 3 id) with
      | (.panic, t) => ((opens t).map (·.2.fd), closeCalls t)
      | _ => ([], [])) = ([7, 8], [(2, 7)]) := by
  decide +kernel

end Dparm
