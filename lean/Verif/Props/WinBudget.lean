import Verif.Lemmas.WinBudget
import Verif.Lemmas.TcgCalls
import Verif.Props.WinClient
/-!
# C165: every call of a Windows client ends, within a known number of API calls
-/
namespace Dparm
open Spec OutT

/-- The price of a request. -/
abbrev waPrice (q : WAReq) (_ : WARep) : Nat := if isWinApiCall q = true then 1 else 0

theorem tally_api (t : Prog.Trace WAReq WARep) : tally waPrice t = apiCalls t := by
  induction t with
  | nil => rfl
  | cons x t ih =>
    unfold apiCalls at ih ⊢
    rw [List.countP_cons]
    simp only [tally, ih, waPrice]
    omega

theorem tally_none {Q R : Type} (t : Prog.Trace Q R) : tally (noGain : Q → R → Nat) t = 0 := by
  induction t with
  | nil => rfl
  | cons x t ih => simp only [tally, ih]

theorem endsAt_pays {α : Type} {n : Nat} {c : α → Nat} {p : WAM α}
    (hp : Pays (fun q => if isWinApiCall q = true then 1 else 0) noGain n c p) (env : Prog.Env WAReq WARep)
    (h : Prog.Trace WAReq WARep) : EndsAt env waPrice h n p := by
  have := pays_run hp env h
  rw [tally_none] at this
  exact this

theorem winCall_pays {α : Type} {n : Nat} {c : α → Nat} {p : WinM α} (hp : Pays eachOne noGain n c p) :
    Pays (fun q => if isWinApiCall q = true then 1 else 0) noGain n c (interp winCall p) :=
  pays_interp _ _ _ _ hp (fun q => pays_ask_bind (Nat.le_refl 1) (fun _ => pays_ret (Nat.zero_le _)))

theorem winMethod_pays {α : Type} {n : Nat} (o : WinOpened) (p : Handle → DrvM α)
    (hp : ∀ k hd, Pays (winPrice k) noGain n (fun _ => 0) (p hd)) :
    Pays (fun q => if isWinApiCall q = true then 1 else 0) noGain n (fun _ => 0) (o.method p) := by
  unfold WinOpened.method
  split
  · rename_i k _
    refine pays_interp _ _ _ _ (hp k _) (fun q => ?_)
    exact pays_ask_bind (Nat.zero_le _) (fun r => pays_mono (winCall_pays (winDrv_pays _ _ _ _ q)) (Nat.le_refl _)
      (fun _ => Nat.zero_le _))
  · refine pays_interp _ _ _ _ (hp (.ata 0) _) (fun q => pays_panic)

theorem winSecPrice_le (k : WinDrv) : winSecPrice k ≤ 4 := by
  cases k <;> (show _ ≤ 4; simp [winSecPrice])

/-- Time does not run backwards while a program runs. -/
theorem winClock_grows {env : Prog.Env WAReq WARep} {clk : Prog.Trace WAReq WARep → Nat} (hc : WinClock env clk) {α : Type}
    (p : WAM α) (h : Prog.Trace WAReq WARep) : clk h ≤ clk (h ++ (run env h p).2) := by
  have : ∀ (p : Prog WAReq WARep (Out α)) (h : Prog.Trace WAReq WARep), clk h ≤ clk (h ++ (Prog.run env h p).2) := by
    intro p
    induction p with
    | done a => intro h; rw [Prog.run_done]; simp
    | ask q k ih =>
      intro h
      rw [Prog.run_ask]
      have a := hc.mono h q
      have b := ih (env h q) (h ++ [(q, env h q)])
      rw [List.append_assoc] at b
      exact Nat.le_trans a b
  exact this p h

theorem win_clockwork {env : Prog.Env WAReq WARep} {clk : Prog.Trace WAReq WARep → Nat} (hc : WinClock env clk)
    (o : WinOpened) : Clockwork (secOnWindows o) waPrice env clk 4 where
  sec := by
    intro h rw dma p cid data secs
    refine endsAt_pays (c := fun _ => 0)
      (winMethod_pays o (fun h => h.securityCommand rw dma p cid data secs) (fun k hd => ?_)) env h
    exact pays_mono (winSecurity_pays k hd _ _ _ _ _ _) (winSecPrice_le k) (fun _ => Nat.zero_le _)
  now := by
    intro h
    have e : run env h (secOnWindows o .now) = (.ret { time := (env h .now).time }, [(.now, env h .now)]) := rfl
    refine ⟨⟨by rw [e]; simp, by rw [e]; exact Nat.le_refl 0⟩, ?_⟩
    intro r t hr
    rw [e] at hr
    cases hr
    exact hc.now h
  sleep := by
    intro h ns
    have e : run env h (secOnWindows o (.sleep ns)) = (.ret {}, [(.sleep ns, env h (.sleep ns))]) := rfl
    refine ⟨⟨by rw [e]; simp, by rw [e]; exact Nat.le_refl 0⟩, ?_⟩
    intro r t hr
    rw [e] at hr
    cases hr
    exact hc.sleep h ns
  mono := by
    intro h q r t hr
    have := winClock_grows hc (secOnWindows o q) h
    rw [hr] at this
    exact this

/-! ## Enumerations -/

section
variable {env : Prog.Env WAReq WARep} {α β : Type}

theorem winEnds_then {h : Prog.Trace WAReq WARep} {n m : Nat} {p : WinM α} {k : α → WinM β}
    (hp : EndsAt env waPrice h n (interp winCall p))
    (hk : ∀ a t, run env h (interp winCall p) = (.ret a, t) → EndsAt env waPrice (h ++ t) m (interp winCall (k a))) :
    EndsAt env waPrice h (n + m) (interp winCall (p >>= k : WinM β)) := by
  rw [interp_bind]
  exact endsAt_bind hp hk

theorem winEnds_ask {h : Prog.Trace WAReq WARep} {m : Nat} (q : WReq) {k : WRep → WinM β}
    (hk : EndsAt env waPrice (h ++ [(.sys q, env h (.sys q))]) m (interp winCall (k (env h (.sys q)).sys))) :
    EndsAt env waPrice h (1 + m) (interp winCall (ask q >>= k : WinM β)) := by
  rw [interp_asked]
  have e : run env h (winCall q) = (.ret (env h (.sys q)).sys, [(.sys q, env h (.sys q))]) := rfl
  refine endsAt_bind (n := 1) ⟨by rw [e]; simp, by rw [e]; exact Nat.le_refl 1⟩ (fun a t ht => ?_)
  rw [e] at ht
  cases ht
  exact hk

theorem winEnds_defer {h : Prog.Trace WAReq WARep} {n m : Nat} {p : WinM α} {d : WinM Unit}
    (hp : EndsAt env waPrice h n (interp winCall p)) (hd : ∀ h, EndsAt env waPrice h m (interp winCall d)) :
    EndsAt env waPrice h (n + m) (interp winCall (defer p d)) := by
  have hr := interp_defer_run (A := fun _ => True) (B := fun _ _ => True) winCall env
    (fun q _ h => ⟨(env h (.sys q)).sys, rfl, trivial⟩) p d (within_of_asks (asks_true p)) (within_of_asks (asks_true d)) h hp.1
  unfold EndsAt
  rw [hr]
  have h1 := hp
  have h2 := hd (h ++ (run env h (interp winCall p)).2)
  unfold EndsAt at h1 h2
  generalize run env h (interp winCall p) = x at h1 h2 ⊢
  obtain ⟨o, t⟩ := x
  dsimp only at h1 h2 ⊢
  generalize run env (h ++ t) (interp winCall d) = y at h2 ⊢
  obtain ⟨u, v⟩ := y
  dsimp only at h2 ⊢
  refine ⟨?_, ?_⟩
  · cases o with
    | running => exact absurd rfl h1.1
    | ret a => cases u with
      | running => exact absurd rfl h2.1
      | ret b => exact fun e => by cases e
      | panic => exact fun e => by cases e
    | panic => cases u with
      | running => exact absurd rfl h2.1
      | ret b => exact fun e => by cases e
      | panic => exact fun e => by cases e
  · rw [tally_append]
    exact Nat.add_le_add h1.2 h2.2

theorem winEnds_ret {h : Prog.Trace WAReq WARep} {n : Nat} (a : α) :
    EndsAt env waPrice h n (interp winCall (ret a : WinM α)) := endsAt_ret a
theorem winEnds_panic {h : Prog.Trace WAReq WARep} {n : Nat} :
    EndsAt env waPrice h n (interp winCall (panic : WinM α)) := endsAt_panic

theorem winEnds_pays {n : Nat} {c : α → Nat} {p : WinM α} (hp : Pays eachOne noGain n c p) (h : Prog.Trace WAReq WARep) :
    EndsAt env waPrice h n (interp winCall p) := endsAt_pays (winCall_pays hp) env h

end

theorem drives_loop_ends {env : Prog.Env WAReq WARep} {n : Nat} (hl : ListsAtMost env n) (w : WinRun)
    (conv : Wide → Bytes) (set : Nat) (fuel i : Nat) (buf : Bytes) (h : Prog.Trace WAReq WARep) (hi : i ≤ n)
    (hf : n < i + fuel) :
    EndsAt env waPrice h (1 + 21 * (n - i))
      (interp winCall (winEnumLoop w (winOpeners w.base w.base') conv set fuel i buf)) := by
  induction fuel generalizing i buf h with
  | zero => omega
  | succ fuel ih =>
    unfold winEnumLoop
    refine winEnds_ask _ ?_
    have hd := hl.devices h set i
    cases hde : (env h (.sys (.setupDevice set i))).sys.err with
    | some e => exact winEnds_ret _
    | none =>
      have hin : i < n := by
        by_cases hc : n ≤ i
        · exact absurd hde (hd hc)
        · omega
      have next : ∀ buf h, EndsAt env waPrice h (1 + 21 * (n - (i + 1)))
          (interp winCall (winEnumLoop w (winOpeners w.base w.base') conv set fuel (i + 1) buf)) :=
        fun buf h => ih (i + 1) buf h (by omega) (by omega)
      refine endsAt_mono (n := 1 + (2 + (16 + (1 + 21 * (n - (i + 1)) + 1)))) ?_ (by omega)
      refine winEnds_ask _ ?_
      generalize (env _ (WAReq.sys (WReq.setupInterface set i))).sys.err = e
      cases e with
      | some e =>
        dsimp only
        split
        · exact endsAt_mono (next _ _) (by omega)
        · exact winEnds_ret _
      | none =>
        refine winEnds_then (winEnds_pays (winDetail_pays conv set i buf) _) (fun x t _ => ?_)
        obtain ⟨buf, path⟩ := x
        cases path with
        | none => exact endsAt_mono (next _ _) (by omega)
        | some path =>
          refine winEnds_then (winEnds_pays (winOpenByPath_pays w path 0) _) (fun r t _ => ?_)
          cases r with
          | panic => exact winEnds_panic
          | err e => exact endsAt_mono (next _ _) (by omega)
          | ok o =>
            refine endsAt_mono (n := 1 + 21 * (n - (i + 1)) + 1 + 0) ?_ (by omega)
            refine winEnds_then (winEnds_defer (next _ _) (fun h => ?_)) (fun _ _ _ => winEnds_ret _)
            refine winEnds_pays (c := fun _ => 0) ?_ h
            exact pays_bind (winOpenedClose_pays w o) (fun _ => pays_ret (Nat.zero_le _))

theorem enumDrives_ends {env : Prog.Env WAReq WARep} {n : Nat} (hl : ListsAtMost env n) (w : WinRun)
    (conv : Wide → Bytes) (fuel : Nat) (h : Prog.Trace WAReq WARep) (hf : n < fuel) :
    EndsAt env waPrice h (3 + 21 * n) (interp winCall (winEnumDrives w (winOpeners w.base w.base') conv fuel)) := by
  unfold winEnumDrives
  refine endsAt_mono (n := 1 + (1 + 21 * (n - 0) + 1 + 0)) ?_ (by omega)
  refine winEnds_ask _ ?_
  cases (env h (.sys .setupClass)).sys.err with
  | some e => exact winEnds_ret _
  | none =>
    refine winEnds_then (winEnds_defer (drives_loop_ends hl w conv _ fuel 0 _ _ (by omega) (by omega)) (fun h => ?_))
      (fun _ _ _ => winEnds_ret _)
    refine winEnds_pays (c := fun _ => 0) ?_ h
    exact pays_ask_bind (Nat.le_refl 1) (fun _ => pays_ret (Nat.zero_le _))

/-- A request that is not part of a search for volumes. -/
def quietReq : WReq → Prop
  | .firstVolume => False
  | .nextVolume _ => False
  | _ => True

theorem volumesFound_append (t u : Prog.Trace WAReq WARep) (hu : ∀ x ∈ u, ∃ q, x.1 = .sys q ∧ quietReq q) :
    volumesFound (t ++ u) = volumesFound t := by
  unfold volumesFound
  rw [List.foldl_append]
  generalize List.foldl _ 0 t = k
  induction u generalizing k with
  | nil => rfl
  | cons x u ih =>
    obtain ⟨q, hq, hn⟩ := hu x (List.mem_cons_self ..)
    obtain ⟨x, r⟩ := x
    subst hq
    rw [List.foldl_cons, ih (fun y hy => hu y (List.mem_cons_of_mem _ hy))]
    cases q <;> first | rfl | exact absurd hn id

theorem quiet_run {α : Type} {p : WinM α} (hp : Asks quietReq p) (env : Prog.Env WAReq WARep) (h : Prog.Trace WAReq WARep) :
    volumesFound (h ++ (run env h (interp winCall p)).2) = volumesFound h := by
  refine volumesFound_append _ _ ?_
  refine asks_run (A := fun q => ∃ q', q = .sys q' ∧ quietReq q') (asks_interp winCall p hp (fun q hq => ?_)) env h
  exact asks_bind (asks_ask ⟨q, rfl, hq⟩) (fun _ => asks_ret _)

theorem winVolumeHead_quiet (conv : Wide → Bytes) (name fsBuf : Wide) : Asks quietReq (winVolumeHead conv name fsBuf) := by
  unfold winVolumeHead
  refine asks_bind ?_ (fun _ => asks_bind ?_ (fun _ => ?_))
  · unfold winMounts
    refine asks_bind (asks_ask trivial) (fun r => ?_)
    exact asks_ite (asks_bind (asks_lift _) (fun _ => asks_ret _)) (asks_ret _)
  · unfold winFilesystem
    exact asks_bind (asks_ask trivial) (fun r => asks_ret _)
  · exact asks_bind (asks_ask trivial) (fun _ => asks_bind (asks_ask trivial) (fun _ => asks_ret _))

theorem winExtents_quiet (h : Nat) (data : Bytes) (beyond : Nat → Byte) : Asks quietReq (winExtents h data beyond) := by
  unfold winExtents
  refine asks_bind (asks_ask trivial) (fun r => ?_)
  split
  · exact asks_ret _
  · refine asks_bind (asks_lift _) (fun es => ?_)
    split
    · exact asks_ret _
    · refine asks_bind ?_ (fun _ => asks_ret _)
      unfold winPartitionInfo
      refine asks_bind (asks_ask trivial) (fun r => ?_)
      split
      · exact asks_ret _
      · generalize zeros 144 = z
        exact asks_ite (asks_ret _) (asks_ite (asks_ret _) (asks_ret _))

theorem volumes_loop_ends {env : Prog.Env WAReq WARep} {n : Nat} (hl : ListsAtMost env n) (conv : Wide → Bytes)
    (beyond : Nat → Byte) (find : Nat) (fuel v : Nat) (name : Wide) (b : VolBufs) (h : Prog.Trace WAReq WARep)
    (hv : volumesFound h = v) (hi : v ≤ n) (hf : n < v + fuel) :
    EndsAt env waPrice h (8 * (n - v + 1)) (interp winCall (winVolumeLoop conv beyond find fuel name b)) := by
  induction fuel generalizing v name b h with
  | zero => omega
  | succ fuel ih =>
    have next : ∀ item b h, volumesFound h = v → EndsAt env waPrice h (1 + 8 * (n - v))
        (interp winCall (winNextVolume find (winVolumeLoop conv beyond find fuel) item b)) := by
      intro item b h hv
      unfold winNextVolume
      refine winEnds_ask _ ?_
      have hd := hl.volumes h find
      cases hde : (env h (.sys (.nextVolume find))).sys.err with
      | some e => exact winEnds_ret _
      | none =>
        have hin : v < n := by
          by_cases hc : n ≤ v
          · exact absurd hde (hd (by omega))
          · omega
        refine endsAt_mono (n := 8 * (n - (v + 1) + 1) + 0) ?_ (by omega)
        refine winEnds_then (ih (v + 1) _ _ _ ?_ (by omega) (by omega)) (fun _ _ _ => winEnds_ret _)
        unfold volumesFound at hv ⊢
        rw [List.foldl_append, hv]
        show (if (env h (.sys (.nextVolume find))).sys.err = none then v + 1 else v) = v + 1
        rw [if_pos hde]
    unfold winVolumeLoop
    refine endsAt_mono (n := 4 + (2 + (1 + 8 * (n - v)) + 1)) ?_ (by omega)
    refine winEnds_then (winEnds_pays (winVolumeHead_pays conv name b.fs) _) (fun x t ht => ?_)
    have hq := quiet_run (winVolumeHead_quiet conv name b.fs) env h
    rw [ht] at hq
    obtain ⟨item, fsBuf, r⟩ := x
    dsimp only at hq ⊢
    cases r.err with
    | some e => exact endsAt_mono (next _ _ _ (hq.trans hv)) (by omega)
    | none =>
      refine winEnds_defer (n := 2 + (1 + 8 * (n - v))) ?_ (fun h => ?_)
      · refine winEnds_then (winEnds_pays (winExtents_pays r.handle b.data beyond) _) (fun x u hu => ?_)
        have hq2 := quiet_run (winExtents_quiet r.handle b.data beyond) env (h ++ t)
        rw [hu] at hq2
        obtain ⟨es, part, dataBuf⟩ := x
        exact next _ _ _ ((hq2.trans hq).trans hv)
      · refine winEnds_pays (c := fun _ => 0) ?_ h
        exact pays_ask_bind (Nat.le_refl 1) (fun _ => pays_ret (Nat.zero_le _))

theorem enumVolumes_ends {env : Prog.Env WAReq WARep} {n : Nat} (hl : ListsAtMost env n) (conv : Wide → Bytes)
    (beyond : Nat → Byte) (fuel : Nat) (h : Prog.Trace WAReq WARep) (hf : n ≤ fuel) :
    EndsAt env waPrice h (4 + 8 * n) (interp winCall (winEnumVolumes conv beyond fuel)) := by
  have hs := hl.some
  unfold winEnumVolumes
  refine endsAt_mono (n := 1 + (1 + (8 * (n - 1 + 1) + 1 + 0) + 1)) ?_ (by omega)
  refine winEnds_ask _ ?_
  have call : ∀ q h, EndsAt env waPrice h 1 (interp winCall (OutT.call q : WinM Unit)) := by
    intro q h
    refine winEnds_pays (c := fun _ => 0) ?_ h
    exact pays_ask_bind (Nat.le_refl 1) (fun _ => pays_ret (Nat.zero_le _))
  refine winEnds_defer ?_ (call _)
  unfold winSearchVolumes
  refine winEnds_ask _ ?_
  generalize h ++ [(WAReq.sys (.setErrorMode 1), env h (.sys (.setErrorMode 1)))] = h1
  cases hde : (env h1 (.sys .firstVolume)).sys.err with
  | some e => exact winEnds_ret _
  | none =>
    refine winEnds_then (winEnds_defer (volumes_loop_ends hl conv beyond _ fuel 1 _ _ _ ?_ hs (by omega)) (call _))
      (fun _ _ _ => winEnds_ret _)
    unfold volumesFound
    rw [List.foldl_append]
    show (if (env h1 (.sys .firstVolume)).sys.err = none then 1 else 0) = 1
    rw [if_pos hde]

/-! ## Calls -/

theorem winQuery_ends (st : WinHeld) (i n : Nat) {α : Type} (p : Handle → DrvM α)
    (hp : ∀ k hd, Pays (winPrice k) noGain n (fun _ => 0) (p hd)) :
    Pays (fun q => if isWinApiCall q = true then 1 else 0) noGain n (fun _ => 0) (st.query i p) := by
  unfold WinHeld.query WinHeld.on
  split
  · exact pays_bind (winMethod_pays _ p hp) (fun _ => pays_ret (Nat.zero_le _))
  · exact pays_ret (Nat.zero_le _)

theorem endsAt_then_ret {α β : Type} {env : Prog.Env WAReq WARep} {h : Prog.Trace WAReq WARep} {n : Nat} {p : WAM α}
    {k : α → β} (hp : EndsAt env waPrice h n p) : EndsAt env waPrice h n (p >>= fun a => ret (k a)) :=
  endsAt_bind (m := 0) hp (fun a t _ => endsAt_ret _)

/-- C165: on a Windows with a clock and at most `n` disks and volumes, every call a client can make of any handles comes to an
end (the model's bounds on rounds are never used up), and makes at most as many API calls as `winBudget` says. -/
theorem win_call_ends {env : Prog.Env WAReq WARep} {clk : Prog.Trace WAReq WARep → Nat} (hc : WinClock env clk) {n : Nat}
    (hl : ListsAtMost env n) (conv : Wide → Bytes) (ctx : Ctx) (hf : 402 ≤ ctx.fuel) (st : WinHeld)
    (h : Prog.Trace WAReq WARep) (c : WinClientCall) (he : enoughRounds n c) :
    (run env h (c.prog conv ctx st)).1 ≠ .running ∧
    apiCalls (run env h (c.prog conv ctx st)).2 ≤ winBudget n c := by
  rw [← tally_api]
  show EndsAt env waPrice h (winBudget n c) _
  cases c with
  | openPath w path =>
    simp only [WinClientCall.prog]
    exact endsAt_then_ret (winEnds_pays (winOpenByPath_pays w path 0) h)
  | openVolume w vols path =>
    simp only [WinClientCall.prog]
    refine endsAt_bind (n := 16) (m := 0) (winEnds_pays (c := fun _ => 0) ?_ h) (fun x t _ => ?_)
    · unfold winOpenByVolumePath
      split
      · exact pays_ret (Nat.zero_le _)
      · split
        · exact pays_ret (Nat.zero_le _)
        · exact pays_bind (winOpenByPath_pays w _ 0) (fun _ => pays_ret (Nat.zero_le _))
    · cases x with
      | none => exact endsAt_ret _
      | some r => exact endsAt_ret _
  | openPartition w p =>
    simp only [WinClientCall.prog]
    exact endsAt_then_ret (winEnds_pays (winOpenByPath_pays w _ 0) h)
  | enumDrives w fuel =>
    simp only [WinClientCall.prog]
    exact endsAt_then_ret (enumDrives_ends hl w conv fuel h he)
  | enumVolumes beyond fuel =>
    simp only [WinClientCall.prog]
    exact endsAt_then_ret (enumVolumes_ends hl conv beyond fuel h he)
  | close w i =>
    simp only [WinClientCall.prog, WinHeld.on]
    split
    · exact endsAt_then_ret (winEnds_pays (winOpenedClose_pays w _) h)
    · exact endsAt_ret _
  | drivingType i =>
    simp only [WinClientCall.prog]
    exact endsAt_pays (winQuery_ends st i 0 _ (fun k hd => winDrivingType_pays k 0 hd)) env h
  | driverName i =>
    simp only [WinClientCall.prog]
    exact endsAt_pays (winQuery_ends st i 0 _ (fun k hd => winDriverName_pays k 0 hd)) env h
  | ata i rw dma tf data secs =>
    simp only [WinClientCall.prog]
    split
    · exact endsAt_pays (winQuery_ends st i 2 _ (fun k hd => winAta_pays k hd ..)) env h
    · exact endsAt_pays (winQuery_ends st i 2 _ (fun k hd => winAtaNil_pays k hd ..)) env h
  | logPage i nsid logId rae size =>
    simp only [WinClientCall.prog]
    exact endsAt_pays (winQuery_ends st i 1 _ (fun k hd => winLogPage_pays k hd ..)) env h
  | security i rw dma p cid buf secs =>
    simp only [WinClientCall.prog]
    exact endsAt_pays (winQuery_ends st i 4 _ (fun k hd => pays_mono (winSecurity_pays k hd ..) (winSecPrice_le k)
      (fun _ => Nat.zero_le _))) env h
  | discover i =>
    simp only [WinClientCall.prog, WinHeld.on]
    split
    · refine endsAt_then_ret (endsAt_pays (winMethod_pays _ _ (fun k hd => ?_)) env h)
      exact pays_mono (winDiscovery_pays k hd) (winSecPrice_le k) (fun _ => Nat.zero_le _)
    · exact endsAt_ret _
  | revert i d pw psid adm =>
    simp only [WinClientCall.prog, WinHeld.on]
    split
    · exact endsAt_then_ret (endsAt_revert (win_clockwork hc _) ctx d pw psid adm hf h)
    · exact endsAt_ret _
  | defaultPassword i d =>
    simp only [WinClientCall.prog, WinHeld.on]
    split
    · exact endsAt_then_ret (endsAt_password (win_clockwork hc _) ctx d hf h)
    · exact endsAt_ret _
  | tcg i d c =>
    simp only [WinClientCall.prog, WinHeld.on]
    split
    · rename_i o ho
      have := endsAt_tcg (win_clockwork hc o) ctx d c hf h
      cases c <;> exact endsAt_then_ret this
    · exact endsAt_ret _

/-- C165: a client comes to the end of any sequence of calls, with at most the API calls its calls are allowed. -/
theorem win_client_ends {env : Prog.Env WAReq WARep} {clk : Prog.Trace WAReq WARep → Nat} (hc : WinClock env clk) {n : Nat}
    (hl : ListsAtMost env n) (conv : Wide → Bytes) (ctx : Ctx) (hf : 402 ≤ ctx.fuel) (calls : List WinClientCall)
    (he : ∀ c ∈ calls, enoughRounds n c) (st : WinHeld) (h : Prog.Trace WAReq WARep) :
    Out.running ∉ (winClientRun conv ctx env calls st h).reports ∧
    apiCalls (winClientRun conv ctx env calls st h).trace ≤ (calls.map (winBudget n)).sum := by
  induction calls generalizing st h with
  | nil => exact ⟨by simp [winClientRun], Nat.le_refl _⟩
  | cons c cs ih =>
    obtain ⟨a1, a2⟩ := win_call_ends hc hl conv ctx hf st h c (he c (List.mem_cons_self ..))
    obtain ⟨b1, b2⟩ := ih (fun c hc => he c (List.mem_cons_of_mem _ hc))
      (st.afterCall (run env h (c.prog conv ctx st)).1).1 (h ++ (run env h (c.prog conv ctx st)).2)
    simp only [winClientRun, List.mem_cons, not_or, List.map_cons, List.sum_cons]
    refine ⟨⟨?_, b1⟩, ?_⟩
    · generalize (run env h (c.prog conv ctx st)).1 = x at a1
      cases x with
      | ret a => exact fun e => by cases e
      | panic => exact fun e => by cases e
      | running => exact absurd rfl a1
    · unfold apiCalls at a2 b2 ⊢
      rw [List.countP_append]
      omega

/-! ## Not vacuous -/

/-- The sample Windows of C88's counterpart with a clock that counts the sleeps. -/
def clockedWinClient : Prog.Env WAReq WARep := fun h q => match q with
  | .now => { time := (h.map (fun x => match x.1 with | .sleep ns => ns | _ => 0)).sum }
  | q => sampleWinClient h q

theorem clockedWinClient_clock :
    WinClock clockedWinClient (fun h => (h.map (fun x => match x.1 with | WAReq.sleep ns => ns | _ => 0)).sum) := by
  constructor
  · intro h; rfl
  · intro h q; simp
  · intro h ns; simp

theorem clockedWinClient_lists : ListsAtMost clockedWinClient 2 where
  devices := by
    intro h set i hi
    show (if i < 2 then ({} : WRep) else { err := some (.errno 259) }).err ≠ none
    rw [if_neg (by omega)]
    exact fun e => by cases e
  volumes := by intro h find _; exact fun e => by cases e
  some := by omega

example : ∀ c ∈ sampleWinCalls, enoughRounds 2 c := by
  simp [sampleWinCalls, enoughRounds]

set_option maxRecDepth 20000 in
/-- What the calls of the sample client cost, and what they might have cost. -/
example :
    (winClientSteps sampleConv sampleCtx clockedWinClient sampleWinCalls [] []).map apiCalls = [8, 11, 8, 1, 0, 0, 0, 0, 1, 0] ∧
    sampleWinCalls.map (winBudget 2) = [16, 20, 16, 1, 1, 0, 0, 4, 4, 16] := by
  decide +kernel

end Dparm
