import Verif.Spec.SmartSystem
import Verif.Props.AtaUtil
import Verif.Props.HandleSystem
import Verif.Props.WinHandle
import Verif.Lemmas.TperLinux
/-!
# Properties: SMART data through an opened drive (C169)
-/
namespace Dparm
open Spec

/-- `ReadSmart` in terms of its two commands, wherever they run. -/
theorem readSmart_on {Q R : Type} (F : {α : Type} → DrvM α → OutT Q R α) (hret : ∀ {α : Type} (x : α), F (OutT.ret x) = OutT.ret x)
    (hbind : ∀ {α β : Type} (p : DrvM α) (k : α → DrvM β), F (p >>= k) = (F p >>= fun x => F (k x)))
    (hd : Handle) (to : Nat) (env : Prog.Env Q R) (h : Prog.Trace Q R)
    (runs : Byte → Bytes → Prog.Trace Q R → Option GoErr → Bytes → Prop)
    (hrun : ∀ sub b h, b.length = 512 → ∃ e tf b' t, OutT.run env h (F (hd.ataDoTaskFileCmd false false (smartCommand sub) b to))
      = (.ret (e, tf, b'), t) ∧ b'.length = 512 ∧ runs sub b t e b') :
    ∃ res t, OutT.run env h (F (readSmart hd to)) = (.ret res, t) ∧ SmartOutcome runs t res := by
  have hlift : ∀ {α : Type} (x : α), F (OutT.lift (.ret x)) = OutT.ret x := fun x => hret x
  have l1 : ∀ b : Bytes, b.length = 512 → unpackBytes Layout.smartValues b = .ret (.ok (pieces Layout.smartValues b)) :=
    fun b hb => (unpackBytes_spec _ _).1 (by rw [smart_sums.1, hb]; exact Nat.le_refl _)
  have l2 : ∀ b : Bytes, b.length = 512 →
      unpackBytes Layout.smartThresholds b = .ret (.ok (pieces Layout.smartThresholds b)) :=
    fun b hb => (unpackBytes_spec _ _).1 (by rw [smart_sums.2, hb]; exact Nat.le_refl _)
  obtain ⟨e1, tf1, b1, t1, r1, n1, p1⟩ := hrun 0xd0 (zeros 512) h (zeros_length _)
  have r1' : OutT.run env h (F (hd.ataDoTaskFileCmd false false (smartTf 0xd0#8) (zeros 512) to)) = (.ret (e1, tf1, b1), t1) := r1
  unfold readSmart
  rw [hbind, OutT.run_bind_ret env h r1']
  dsimp only
  cases e1 with
  | some e =>
    dsimp only
    rw [hret, OutT.run_ret]
    exact ⟨_, _, rfl, by rw [List.append_nil]; exact .noValues p1⟩
  | none =>
    dsimp only
    obtain ⟨e2, tf2, b2, t2, r2, n2, p2⟩ := hrun 0xd1 b1 (h ++ t1) n1
    have r2' : OutT.run env (h ++ t1) (F (hd.ataDoTaskFileCmd false false (smartTf 0xd1#8) b1 to)) = (.ret (e2, tf2, b2), t2) := r2
    rw [l1 _ n1, hbind, hlift, OutT.run_bind, OutT.run_ret]
    dsimp only
    rw [List.append_nil, List.nil_append, hbind, OutT.run_bind_ret env (h ++ t1) r2']
    dsimp only
    cases e2 with
    | some e =>
      dsimp only
      rw [hret, OutT.run_ret]
      exact ⟨_, _, rfl, by rw [List.append_nil]; exact .noThresholds p1 p2⟩
    | none =>
      dsimp only
      rw [l2 _ n2, hbind, hlift, OutT.run_bind, OutT.run_ret]
      dsimp only
      rw [hret, OutT.run_ret]
      exact ⟨_, _, rfl, by simp only [List.append_nil]; exact .both p1 p2 (smartValues_of _ n1) (smartThresholds_of _ n2)⟩

/-! ## Linux -/

theorem method_ret (o : Opened) {α : Type} (x : α) : o.method (fun _ => OutT.ret x) = (OutT.ret x : LM α) := by
  unfold Opened.method Opened.onHandle
  cases o.source <;> rfl

theorem method_bind (o : Opened) {α β : Type} (p : DrvM α) (k : α → DrvM β) :
    o.method (fun _ => p >>= k) = (o.method (fun _ => p) >>= fun x => o.method (fun _ => k x) : LM β) := by
  unfold Opened.method Opened.onHandle
  cases o.source with
  | none =>
    dsimp only
    unfold onDriver onLinux
    rw [OutT.interp_bind]
    exact OutT.interp_bind _ _ _
  | some x =>
    dsimp only
    unfold onDriver onLinux
    rw [OutT.interp_bind]
    exact OutT.interp_bind _ _ _

/-- **C169.** `ReadSmart` on a drive the Linux factory opened. On an NVMe drive and without driver: the error "not supported in this driver",
no system call. On a SCSI generic drive: one SMART READ DATA and, if that succeeded, one SMART READ THRESHOLDS as C132 says, and the outcome
of `SmartOutcome`. -/
theorem smart_linux (o : Opened) (secs : Nat) (env : Prog.Env LReq LRep) (h : Prog.Trace LReq LRep) :
    ((∃ fd, NvmeDrive o fd) ∨ NoDriver o → OutT.run env h (o.readSmart secs) = (.ret (.err .notSupportThisDriver), [])) ∧
    (∀ fd, ScsiDrive o fd → ∃ res t, OutT.run env h (o.readSmart secs) = (.ret res, t) ∧ SmartOutcome (SmartOnScsi fd secs) t res) := by
  constructor
  · intro hk
    have hr : readSmart o.handle secs = OutT.ret (.err .notSupportThisDriver) := by
      unfold readSmart Handle.ataDoTaskFileCmd
      rcases hk with ⟨fd, -, id, hd⟩ | ⟨-, hd⟩
      · rw [hd]; rfl
      · rw [hd]; rfl
    have : o.readSmart secs = o.method (fun _ => OutT.ret (.err .notSupportThisDriver)) := by
      unfold Opened.readSmart Opened.method
      dsimp only
      rw [hr]
    rw [this, method_ret, OutT.run_ret]
  · intro fd hs
    refine readSmart_on (fun p => o.method (fun _ => p)) (method_ret o) (method_bind o) o.handle secs env h _ ?_
    intro sub b h hb
    have hne : some b ≠ some [] := by
      intro x
      rw [Option.some.inj x] at hb
      cases hb
    obtain ⟨e, tf', after, t, hrun, hio⟩ :=
      ((ata_command o false false (smartCommand sub) (some b) secs (by simp [hb]) env h).2 fd hs).2 hne
    unfold Opened.ataCommand at hrun
    dsimp only at hrun
    obtain ⟨x, hx⟩ : ∃ x, x = OutT.run env h (o.method (fun h => h.ataDoTaskFileCmd false false (smartCommand sub) b secs)) := ⟨_, rfl⟩
    obtain ⟨r, t'⟩ := x
    rw [OutT.run_bind, ← hx] at hrun
    cases r with
    | panic => cases hrun
    | running => cases hrun
    | ret y =>
      obtain ⟨e', tf'', b'⟩ := y
      simp only [OutT.run_ret, List.append_nil, Prod.mk.injEq, Out.ret.injEq] at hrun
      obtain ⟨⟨rfl, rfl, rfl⟩, rfl⟩ := hrun
      refine ⟨e', tf'', b', t', hx.symm, ?_, tf'', hio⟩
      cases hio with
      | mk cmd cdb dir len timeout io mem result =>
        obtain ⟨addr, m, c, -, -, hc, hm⟩ := mem
        obtain rfl := Option.some.inj hc
        simp only [Bool.false_eq_true, if_false] at hm
        have hml : m.length = 512 := by
          rcases hm.1 with rfl | rfl
          · exact hb
          · rw [zeros_length]; exact hb
        rcases hm.2.2 with e | e
        · rw [e, delivered_length, hml]
        · rw [e, hb]

/-- **C169.** A disk that answers both SMART commands is read: the values and the thresholds returned are those of its sectors, after two
ioctls. -/
theorem smart_disk_read (o : Opened) (fd : Nat) (ho : ScsiDrive o fd) (secs : Nat) (values thresholds : Bytes) (env : Prog.Env LReq LRep)
    (hv : AnswersSmart fd 0xd0 values env) (ht : AnswersSmart fd 0xd1 thresholds env) (h : Prog.Trace LReq LRep) :
    ∃ v w t, OutT.run env h (o.readSmart secs) = (.ret (.ok (v, w)), t) ∧ SmartValuesOf values v ∧ SmartThresholdsOf thresholds w ∧
      (t.filter (fun x => match x.1 with | .sgIo .. => true | _ => false)).length = 2 := by
  obtain ⟨res, t, hrun, hout⟩ := (smart_linux o secs env h).2 fd ho
  have key : ∀ sub sector b t e after (h0 : Prog.Trace LReq LRep), AnswersSmart fd sub sector env → b.length = 512 →
      (∀ t₁ t₂ q a, t = t₁ ++ (q, a) :: t₂ → a = env (h0 ++ t₁) q) →
      SmartOnScsi fd secs sub b t e after →
      e = none ∧ after = sector ∧ (t.filter (fun x => match x.1 with | .sgIo .. => true | _ => false)).length = 1 := by
    rintro sub sector b t e after h0 ⟨hl, hans⟩ hb hh ⟨tf', hio⟩
    cases hio with
    | mk cmd cdb dir len timeout io mem result =>
      rename_i pl q u r r₂
      have hq : ∀ h, (env h (.sgIo fd q)).sg.err = none ∧ (env h (.sgIo fd q)).sg.data = sector ∧
          fixedKey (senseArea (zeros 32) (env h (.sgIo fd q)).sg.sense) = 0 :=
        fun h => hans h q cmd dir (by rw [len]; exact hb)
      have hr : r.sg.err = none ∧ r.sg.data = sector ∧ fixedKey (senseArea (zeros 32) r.sg.sense) = 0 := by
        cases io with
        | once ok =>
          rw [hh [_] _ _ _ rfl]; exact hq _
        | twice bad =>
          rw [hh [_] _ _ _ rfl]; exact hq _
      cases io with
      | twice bad => exact absurd hr.1 bad
      | once ok =>
        obtain ⟨addr, m, c, -, -, hc, hm⟩ := mem
        obtain rfl := Option.some.inj hc
        simp only [Bool.false_eq_true, if_false] at hm
        have hml : m.length = 512 := by
          rcases hm.1 with rfl | rfl
          · exact hb
          · rw [zeros_length]; exact hb
        refine ⟨((result.2 (by intro x hx; cases hx)).2 hr.2.2).1, ?_, rfl⟩
        rw [hm.2.1 ok, hr.2.1]
        unfold delivered
        rw [hml, List.take_of_length_le (by omega), List.drop_of_length_le (by omega), List.append_nil]
  have hans := OutT.run_answers env (o.readSmart secs) h
  rw [hrun] at hans
  dsimp only at hans
  cases hout with
  | noValues first =>
    cases (key 0xd0 values _ _ _ _ h hv (zeros_length _) hans first).1
  | @noThresholds t u e b c first second =>
    obtain ⟨-, hb, -⟩ := key 0xd0 values _ _ _ _ h hv (zeros_length _)
      (fun t₁ t₂ q a he => hans t₁ (t₂ ++ u) q a (by rw [he, List.append_assoc]; rfl)) first
    cases (key 0xd1 thresholds _ _ _ _ (h ++ t) ht (by rw [hb]; exact hv.1)
      (fun t₁ t₂ q a he => by rw [hans (t ++ t₁) t₂ q a (by rw [he, List.append_assoc]), List.append_assoc]) second).1
  | @both t u b c v w first second vs ts =>
    obtain ⟨-, hb, n1⟩ := key 0xd0 values _ _ _ _ h hv (zeros_length _)
      (fun t₁ t₂ q a he => hans t₁ (t₂ ++ u) q a (by rw [he, List.append_assoc]; rfl)) first
    obtain ⟨-, hc, n2⟩ := key 0xd1 thresholds _ _ _ _ (h ++ t) ht (by rw [hb]; exact hv.1)
      (fun t₁ t₂ q a he => by rw [hans (t ++ t₁) t₂ q a (by rw [he, List.append_assoc]), List.append_assoc]) second
    subst hb hc
    exact ⟨v, w, _, hrun, vs, ts, by rw [List.filter_append, List.length_append, n1, n2]⟩

/-! ## Windows -/

theorem winMethod_ret (o : WinOpened) {α : Type} (x : α) : o.method (fun _ => OutT.ret x) = (OutT.ret x : WAM α) := by
  unfold WinOpened.method
  cases o.drv <;> rfl

theorem winMethod_bind (o : WinOpened) {α β : Type} (p : DrvM α) (k : α → DrvM β) :
    o.method (fun _ => p >>= k) = (o.method (fun _ => p) >>= fun x => o.method (fun _ => k x) : WAM β) := by
  unfold WinOpened.method
  cases o.drv with
  | none => exact OutT.interp_bind _ _ _
  | some x => exact OutT.interp_bind _ _ _

/-- **C169.** `ReadSmart` on a drive the Windows factory opened. On an NVMe drive and without driver: the error "not supported in this
driver", no request. On a drive of the ATA or the SCSI driver: one SMART READ DATA and, if that succeeded, one SMART READ THRESHOLDS as C138
says, and the outcome of `SmartOutcome`. -/
theorem smart_windows (o : WinOpened) (secs : Nat) (env : Prog.Env WAReq WARep) (h : Prog.Trace WAReq WARep) :
    ((∃ k, WinBound o k ∧ k.isAta = false) ∨ WinUnbound o →
      OutT.run env h (o.readSmart secs) = (.ret (.err .notSupportThisDriver), [])) ∧
    (∀ k, WinBound o k → k.isAta = true →
      ∃ res t, OutT.run env h (o.readSmart secs) = (.ret res, t) ∧ SmartOutcome (SmartOnWindows k secs) t res) := by
  constructor
  · intro hk
    have hr : readSmart o.handle secs = OutT.ret (.err .notSupportThisDriver) := by
      unfold readSmart Handle.ataDoTaskFileCmd
      rcases hk with ⟨k, ⟨-, identity, hd⟩, hf⟩ | ⟨-, hd⟩
      · rw [hd]
        dsimp only
        rw [hf]
        rfl
      · rw [hd]; rfl
    have : o.readSmart secs = o.method (fun _ => OutT.ret (.err .notSupportThisDriver)) := by
      unfold WinOpened.readSmart WinOpened.method
      dsimp only
      rw [hr]
    rw [this, winMethod_ret, OutT.run_ret]
  · intro k hk ha
    refine readSmart_on (fun p => o.method (fun _ => p)) (winMethod_ret o) (winMethod_bind o) o.handle secs env h _ ?_
    intro sub b h hb
    have hne : b ≠ [] := by
      intro x
      rw [x] at hb
      cases hb
    obtain ⟨e, after, pl, u, t, hrun, hsys, hio⟩ :=
      ((win_ata_command o false false (smartCommand sub) (some b) secs env h).2 k hk ha).2 b rfl hne
    unfold WinOpened.ataCommand at hrun
    dsimp only at hrun
    obtain ⟨x, hx⟩ : ∃ x, x = OutT.run env h (o.method (fun h => h.ataDoTaskFileCmd false false (smartCommand sub) b secs)) := ⟨_, rfl⟩
    obtain ⟨r, t'⟩ := x
    rw [OutT.run_bind, ← hx] at hrun
    cases r with
    | panic => cases hrun
    | running => cases hrun
    | ret y =>
      obtain ⟨e', tf'', b'⟩ := y
      simp only [OutT.run_ret, List.append_nil, Prod.mk.injEq, Out.ret.injEq, Option.some.injEq] at hrun
      obtain ⟨⟨rfl, rfl, rfl⟩, rfl⟩ := hrun
      exact ⟨e', _, b', _, hx.symm, by rw [(hio.read rfl).1]; exact hb, pl, u, t, rfl, hsys, hio⟩

/-- **C169.** The same on Windows: a disk that answers both SMART commands is read, after two requests. -/
theorem smart_disk_read_windows (o : WinOpened) (k : WinDrv) (ho : WinBound o k) (ha : k.isAta = true) (secs : Nat) (values thresholds : Bytes)
    (env : Prog.Env WAReq WARep) (hv : AnswersSmartWin k secs 0xd0 values env) (ht : AnswersSmartWin k secs 0xd1 thresholds env)
    (h : Prog.Trace WAReq WARep) :
    ∃ v w t, OutT.run env h (o.readSmart secs) = (.ret (.ok (v, w)), t) ∧ SmartValuesOf values v ∧ SmartThresholdsOf thresholds w ∧
      (t.filter (fun x => match x.1 with | .sys _ => true | _ => false)).length = 2 := by
  obtain ⟨res, t, hrun, hout⟩ := (smart_windows o secs env h).2 k ho ha
  have key : ∀ sub sector b t e after (h0 : Prog.Trace WAReq WARep), AnswersSmartWin k secs sub sector env → b.length = 512 →
      (∀ t₁ t₂ q a, t = t₁ ++ (q, a) :: t₂ → a = env (h0 ++ t₁) q) →
      SmartOnWindows k secs sub b t e after →
      e = none ∧ after = sector ∧ (t.filter (fun x => match x.1 with | .sys _ => true | _ => false)).length = 1 := by
    rintro sub sector b t e after h0 ⟨hl, hans⟩ hb hh ⟨pl, u, t', rfl, hsys, hio⟩
    have first : ∀ x u', u = x :: u' → ∃ a t'', t' = (.sys x.1, a) :: t'' ∧ a.sys = x.2 ∧ (u' = [] → t'' = []) ∧
        a = env (h0 ++ [(.place, pl)]) (.sys x.1) := by
      intro x u' hu
      unfold SysCalls at hsys
      rw [hu] at hsys
      cases t' with
      | nil => cases hsys
      | cons y t'' =>
        obtain ⟨q, a⟩ := y
        simp only [List.map_cons, List.cons.injEq, Prod.mk.injEq] at hsys
        obtain ⟨⟨rfl, h2⟩, h3⟩ := hsys
        refine ⟨a, t'', rfl, h2, ?_, hh [_] t'' _ _ rfl⟩
        intro hu'
        rw [hu'] at h3
        exact List.map_eq_nil_iff.1 h3
    have good : ∀ x u', u = x :: u' → x.2.err = none ∧ x.2.mem = sector ∧
        (∃ code inb n m, x.1 = .ioctl k.handle code inb n m ∧ GoodAnswer k inb x.2) := by
      intro x u' hu
      obtain ⟨a, t'', -, h2, -, h4⟩ := first x u' hu
      obtain ⟨code, inb, n, m, hx, hc⟩ := hio.requests x (by rw [hu]; exact List.mem_cons_self)
      rw [hb] at hc
      have hg := hans (h0 ++ [(.place, pl)]) code inb n m hc
      rw [hx] at h4
      rw [← h4, h2] at hg
      exact ⟨hg.1, hg.2.1, code, inb, n, m, hx, hg.2.2⟩
    rcases hio.count with ⟨x, hu, -⟩ | ⟨x, y, hu, bad⟩
    · obtain ⟨-, hm, code, inb, n, m, hx, hg⟩ := good x [] hu
      obtain ⟨a, t'', ht', -, hnil, -⟩ := first x [] hu
      refine ⟨?_, ?_, by rw [ht', hnil rfl]; rfl⟩
      · have hj := hio.judged
        rw [hu] at hj
        cases k with
        | ata f =>
          have hj' : e = ataReport (if 46 < x.2.out.length then x.2.out.getD 46 0 else (smartCommand sub).command) := hj
          rw [hj', if_pos hg.1]
          unfold ataReport
          rw [if_neg hg.2]
        | scsi f =>
          obtain ⟨h', code', inb', n', m', hx', he⟩ :
              ∃ h code inb n m, x.1 = .ioctl h code inb n m ∧ e = scsiReport (delivered inb x.2.out) := hj
          rw [hx] at hx'
          cases hx'
          rw [he]
          unfold scsiReport
          rw [if_pos (show fixedKey (slice (delivered inb x.2.out) 60 32) = 0 from hg)]
        | _ => exact hj.elim
      · have fill : ∀ b : Bytes, b.length = 512 → receivedInto b x.2.mem = sector := by
          intro b hb
          unfold receivedInto delivered
          rw [hm, hb, List.take_of_length_le (l := sector) (by rw [hl]; decide), List.take_of_length_le (by rw [hl]; exact Nat.le_refl _),
            List.drop_of_length_le (by rw [hb, hl]; exact Nat.le_refl _), List.append_nil]
        rcases (hio.read rfl).2 x hu with e' | e'
        · rw [e', fill b hb]
        · rw [e', fill _ (by rw [zeros_length]; exact hb)]
    · exact absurd (good x [y] hu).1 bad
  have hans := OutT.run_answers env (o.readSmart secs) h
  rw [hrun] at hans
  dsimp only at hans
  cases hout with
  | noValues first =>
    cases (key 0xd0 values _ _ _ _ h hv (zeros_length _) hans first).1
  | @noThresholds t u e b c first second =>
    obtain ⟨-, hb, -⟩ := key 0xd0 values _ _ _ _ h hv (zeros_length _)
      (fun t₁ t₂ q a he => hans t₁ (t₂ ++ u) q a (by rw [he, List.append_assoc]; rfl)) first
    cases (key 0xd1 thresholds _ _ _ _ (h ++ t) ht (by rw [hb]; exact hv.1)
      (fun t₁ t₂ q a he => by rw [hans (t ++ t₁) t₂ q a (by rw [he, List.append_assoc]), List.append_assoc]) second).1
  | @both t u b c v w first second vs ts =>
    obtain ⟨-, hb, n1⟩ := key 0xd0 values _ _ _ _ h hv (zeros_length _)
      (fun t₁ t₂ q a he => hans t₁ (t₂ ++ u) q a (by rw [he, List.append_assoc]; rfl)) first
    obtain ⟨-, hc, n2⟩ := key 0xd1 thresholds _ _ _ _ (h ++ t) ht (by rw [hb]; exact hv.1)
      (fun t₁ t₂ q a he => by rw [hans (t ++ t₁) t₂ q a (by rw [he, List.append_assoc]), List.append_assoc]) second
    subst hb hc
    exact ⟨v, w, _, hrun, vs, ts, by rw [List.filter_append, List.length_append, n1, n2]⟩

/-! ## The hypotheses are met -/

/-- A kernel whose disk has these two SMART sectors. -/
def smartKernel (values thresholds : Bytes) : Prog.Env LReq LRep := fun _ q =>
  match q with
  | .sgIo _ q => { sg := { data := if (satDecode q.cdb).map (·.feat) = some (reg false 0 0xd0) then values else thresholds } }
  | _ => {}

/-- Any two sectors are the answers of a disk, and `ReadSmart` then returns them: a drive with attribute 9 (power-on hours) first. -/
example (values thresholds : Bytes) (hv : values.length = 512) (ht : thresholds.length = 512) (h9 : byteAt values 2 = 9) :
    ∃ v w t, OutT.run (smartKernel values thresholds) [] (sampleScsiOpened.readSmart 5) = (.ret (.ok (v, w)), t) ∧
      (smartAttr v 0).id = 9 ∧ SmartThresholdsOf thresholds w := by
  have hk : fixedKey (senseArea (zeros 32) []) = 0 := by decide +kernel
  obtain ⟨v, w, t, hrun, hv', hw, -⟩ := smart_disk_read sampleScsiOpened 9 ⟨rfl, [], rfl⟩ 5 values thresholds (smartKernel values thresholds)
    ⟨hv, fun h q hq _ _ => ⟨rfl, (by
      show (if (satDecode q.cdb).map (·.feat) = some (reg false 0 0xd0) then values else thresholds) = values
      rw [hq, if_pos (by decide)]), hk⟩⟩
    ⟨ht, fun h q hq _ _ => ⟨rfl, (by
      show (if (satDecode q.cdb).map (·.feat) = some (reg false 0 0xd0) then values else thresholds) = thresholds
      rw [hq, if_neg (by decide)]), hk⟩⟩ []
  exact ⟨v, w, t, hrun, by rw [(hv'.2 0 (by decide)).1]; exact h9, hw⟩

/-- The same with the Windows ATA driver (a good status, 50h), whose records carry the subcommand in their first register. -/
example (values thresholds : Bytes) (hv : values.length = 512) (ht : thresholds.length = 512) :
    ∃ env v w t, OutT.run env [] (exAtaDrive.readSmart 5) = (.ret (.ok (v, w)), t) ∧ SmartValuesOf values v ∧ SmartThresholdsOf thresholds w := by
  let env : Prog.Env WAReq WARep := fun _ q => match q with
    | .sys (.ioctl _ _ inb _ _) => { sys := { out := List.replicate 47 0x50, mem := if (ataView (inb.take 48)).current = currentRegs (smartCommand 0xd0)
        then values else thresholds } }
    | _ => {}
  have hgood : ∀ {inb : Bytes} {m : Bytes}, GoodAnswer (.ata 7) inb { out := List.replicate 47 0x50, mem := m } := by
    intro inb m
    exact ⟨(by show 46 < (List.replicate 47 (0x50 : Byte)).length; decide),
      (by show ¬ errOrDrq ((List.replicate 47 (0x50 : Byte)).getD 46 0); decide)⟩
  obtain ⟨v, w, t, hrun, hv', hw, -⟩ := smart_disk_read_windows exAtaDrive (.ata 7) ⟨rfl, [], rfl⟩ rfl 5 values thresholds env
    ⟨hv, fun h code inb n m hc => ⟨rfl, (by
      show (if (ataView (inb.take 48)).current = currentRegs (smartCommand 0xd0) then values else thresholds) = values
      rw [if_pos hc.2.2.2.2.1]), hgood⟩⟩
    ⟨ht, fun h code inb n m hc => ⟨rfl, (by
      show (if (ataView (inb.take 48)).current = currentRegs (smartCommand 0xd0) then values else thresholds) = thresholds
      rw [if_neg (by rw [hc.2.2.2.2.1]; decide)]), hgood⟩⟩ []
  exact ⟨env, v, w, t, hrun, hv', hw⟩

/-- There are drives of every kind. -/
example : ScsiDrive sampleScsiOpened 9 ∧ NvmeDrive sampleNvmeOpened 9 ∧ WinBound exAtaDrive (.ata 7) ∧
    (∃ k, WinBound exInboxDrive k ∧ k.isAta = false) :=
  ⟨⟨rfl, [], rfl⟩, ⟨rfl, [], rfl⟩, ⟨rfl, [], rfl⟩, .windowsNvme 9, ⟨rfl, [], rfl⟩, rfl⟩

end Dparm
