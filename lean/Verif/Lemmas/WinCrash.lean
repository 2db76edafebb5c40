import Verif.Spec.WinCrash
import Verif.Props.Crash
import Verif.Props.WinLooking
import Verif.Props.WinTcgNvme
import Verif.Props.WinHandle
import Verif.Props.WinEnum
/-!
# When a program can end in a panic on Windows
-/
namespace Dparm
open Spec

/-! ## One driver call with a buffer of 2048 bytes -/

/-- What a call leaves: a buffer of 2048 bytes, and after success it holds what the last request received. -/
def Got (k : WinDrv) (u : Prog.Trace WReq WRep) (err : Option GoErr) (data : Bytes) : Prop :=
  data.length = 2048 ∧ (err = none → ∃ before x, u = before ++ [x] ∧ Received k x data)

theorem pass_received (w : WinPass) (hw : w.Ok) (k : WinDrv) (hc : passCodes k = some (w.direct, w.buffered, w.size))
    (data : Bytes) (hl : data.length = 2048) (addr base : Nat) (env : Prog.Env WReq WRep) (hist : Prog.Trace WReq WRep) :
    ∃ e d u, OutT.run env hist (w.run k.handle false data addr base) = (.ret (e, d), u) ∧ Got k u e d := by
  have hne : data ≠ [] := by
    intro h
    rw [h] at hl
    cases hl
  obtain ⟨a, c, d1, p, q, r, hp, hq, -, -, h1, h2, h3, -, h4, h5, h6, h7⟩ := winPass_run w hw k.handle false data addr base env hist hne
  cases he : r.err with
  | none =>
    refine ⟨_, _, _, h6 he, by rw [h2, hl], fun _ => ⟨[], _, rfl, ?_⟩⟩
    have hd : d1 = receivedInto c r.mem := by
      by_cases ha : addr % 512 = 0
      · obtain ⟨-, e1, e2⟩ := h4 rfl ha
        rw [e1, e2]
      · obtain ⟨e1, -, e2⟩ := h5 rfl ha
        rw [e1, e2 he]
    rw [hd, hq]
    exact .direct hc (by rw [h1, hl]) he
  | some e =>
    obtain ⟨p2, q2, r2, hp2, hl2, hq2, -, h8, h9⟩ := h7 e he
    cases he2 : r2.err with
    | some e2 =>
      exact ⟨_, _, _, h9 e2 he2, by rw [h2, hl], fun h => by cases h⟩
    | none =>
      refine ⟨_, _, _, h8 he2, ?_, fun _ => ⟨[(q, r)], (q2, r2), rfl, ?_⟩⟩
      · rw [if_neg (by decide), delivered_length, h2, hl]
      · rw [if_neg (by decide), hq2]
        refine .buffered hc ?_ (by rw [h2, hl]) he2
        exact payload_buffered w hw p2 d1 hl2 k.handle w.buffered _ (w.fields data.length (delivered p r.out))
          (hw.fields _ _ (by rw [delivered_length, h3])) hp2

/-- The requests `SecurityCommand` makes for a read into 2048 bytes. -/
def Reads2048 (k : WinDrv) : DrvReq → Prop
  | .sec rw _ _ _ data _ => rw = false ∧ data.length = 2048
  | .taskFile rw _ _ data _ => k.isAta = true ∧ rw = false ∧ data.length = 2048
  | .nvmeAdmin c => k.isNvme = true ∧ ∃ p comId data, c = securityNvme false p comId data ∧ data.length = 2048
  | _ => False

theorem winDrv_received (k : WinDrv) (addr base : Nat) (behind : Nat → Byte) (q : DrvReq) (hq : Reads2048 k q)
    (env : Prog.Env WReq WRep) (hist : Prog.Trace WReq WRep) :
    ∃ rep u, OutT.run env hist (winDrv k addr base behind q) = (.ret rep, u) ∧ rep.behind = behind ∧ Got k u rep.err rep.data := by
  have pass : ∀ (w : WinPass), w.Ok → passCodes k = some (w.direct, w.buffered, w.size) → ∀ (data : Bytes), data.length = 2048 →
      ∀ tf, ∃ rep u, OutT.run env hist (w.run k.handle false data addr base >>= fun x =>
        OutT.ret ({ err := x.1, data := x.2, behind := behind, tf := tf } : DrvRep)) = (.ret rep, u) ∧ rep.behind = behind ∧
          Got k u rep.err rep.data := by
    intro w hw hc data hl tf
    obtain ⟨e, d, u, hr, hg⟩ := pass_received w hw k hc data hl addr base env hist
    exact ⟨_, u, by rw [OutT.run_bind_ret env hist hr, OutT.run_ret, List.append_nil], rfl, hg⟩
  cases q with
  | sec rw dma p c data secs =>
    obtain ⟨rfl, hl⟩ := hq
    cases k with
    | nvmeWin h sh => exact ⟨_, _, rfl, rfl, hl, fun h => by cases h⟩
    | windowsNvme h => exact pass _ (passOf_ok (.scsiSecurity p c) false secs) rfl data hl {}
    | scsi h => exact pass _ (passOf_ok (.scsiSecurity p c) false secs) rfl data hl {}
    | ata h => exact ⟨_, _, rfl, rfl, hl, fun h => by cases h⟩
  | taskFile rw dma tf data secs =>
    obtain ⟨hk, rfl, hl⟩ := hq
    cases k with
    | nvmeWin h sh => cases hk
    | windowsNvme h => cases hk
    | scsi h => exact pass _ (passOf_ok (.scsiTask tf) false secs) rfl data hl tf
    | ata h => exact pass _ (passOf_ok (.ataTask tf) false secs) rfl data hl tf
  | nvmeAdmin c =>
    obtain ⟨hk, p, comId, data, rfl, hl⟩ := hq
    cases k with
    | ata h => cases hk
    | scsi h => cases hk
    | windowsNvme h => exact ⟨_, _, rfl, rfl, hl, fun h => by cases h⟩
    | nvmeWin h sh =>
      obtain ⟨cmd, hcmd⟩ : ∃ cmd, cmd = securityNvme false p comId data := ⟨_, rfl⟩
      rw [← hcmd]
      have hdl : cmd.dataLen.toNat = 2048 := by
        rw [hcmd]
        show (BitVec.ofNat 32 data.length).toNat = _
        rw [BitVec.toNat_ofNat, hl]
      have href : miniportData cmd (fun _ => 0#8) = data := by rw [hcmd]; rfl
      obtain ⟨hlr, -⟩ := miniportRecord_view cmd data
      obtain ⟨r, hr⟩ : ∃ r, r = env hist (.ioctl sh 0x4d008 (miniportRecord cmd data) 4248 none) := ⟨_, rfl⟩
      have hrun : OutT.run env hist (miniportAdmin sh cmd (fun _ => 0#8)) =
          (.ret (r.err, if r.err = none then (miniportView (delivered (miniportRecord cmd data) r.out)).data.take 2048 else data),
            [(.ioctl sh 0x4d008 (miniportRecord cmd data) 4248 none, r)]) := by
        unfold miniportAdmin
        dsimp only
        rw [href, if_neg (by omega), OutT.run_ask_bind, ← hr]
        cases he : r.err with
        | some e => rfl
        | none =>
          dsimp only
          rw [OutT.run_ret, hdl, if_pos rfl, miniportView_data, slice_take_le _ _ _ _ (by omega), storeInto_delivered (miniportRecord _ _),
            storeInto_full data _ ?_]
          rw [slice, List.length_take, List.length_drop, delivered_length, hlr, hl]
          omega
      refine ⟨_, _, by unfold winDrv; dsimp only; rw [OutT.run_bind_ret env hist hrun, OutT.run_ret, List.append_nil], rfl, ?_⟩
      dsimp only
      cases he : r.err with
      | some e => exact ⟨by rw [if_neg (by simp)]; exact hl, fun h => by cases h⟩
      | none =>
        rw [if_pos rfl]
        refine ⟨?_, fun _ => ⟨[], _, rfl, .miniport rfl hlr he⟩⟩
        rw [miniportView_data, slice_take_le _ _ _ _ (by omega), slice, List.length_take, List.length_drop, delivered_length, hlr]
        omega
  | _ => exact hq.elim

/-! ## The methods of a handle -/

section
variable {Q R : Type} {k : WinDrv} {f : DrvReq → OutT Q R DrvRep} {L : Prog.Trace Q R → Bytes → (Nat → Byte) → Prop}

/-- Reads through `f` deliver what the end of the exchanges says. -/
def Serves (k : WinDrv) (f : DrvReq → OutT Q R DrvRep) (L : Prog.Trace Q R → Bytes → (Nat → Byte) → Prop) : Prop :=
  ∀ q, Reads2048 k q → ∀ env hist, ∃ rep u, OutT.run env hist (f q) = (.ret rep, u) ∧ rep.data.length = 2048 ∧
    (rep.err = none → L u rep.data rep.behind)

/-- Something may have happened before. -/
def LaterGot (L : Prog.Trace Q R → Bytes → (Nat → Byte) → Prop) : Prop := ∀ s t d b, L t d b → L (s ++ t) d b

theorem security_serves (hL : LaterGot L) (hf : Serves k f L) {h : Handle} {d : Driver} (hd : h.dh = some d)
    (ha : d.ata = k.isAta) (hn : d.nvme = k.isNvme) (dma : Bool) (p : Byte) (c : BitVec 16) (buf : Bytes) (secs : Nat)
    (hl : buf.length = 2048) (env : Prog.Env Q R) (hist : Prog.Trace Q R) :
    ∃ rep u, OutT.run env hist (OutT.interp f (h.securityCommand false dma p c buf secs)) = (.ret rep, u) ∧ rep.data.length = 2048 ∧
      (rep.err = none → L u rep.data rep.behind) := by
  unfold Handle.securityCommand
  rw [hd]
  dsimp only
  rw [interp_ask_then]
  obtain ⟨r, u, hr, h1, h2⟩ := hf (.sec false dma p c buf secs) ⟨rfl, hl⟩ env hist
  rw [OutT.run_bind_ret env hist hr]
  have hs : storeInto buf r.data = r.data := storeInto_full _ _ (by rw [h1, hl])
  rw [hs]
  cases he : r.err with
  | none =>
    dsimp only
    refine ⟨_, _, rfl, h1, fun _ => ?_⟩
    show L (u ++ []) r.data r.behind
    rw [List.append_nil]
    exact h2 he
  | some e =>
    dsimp only
    cases hk : k.isAta with
    | true =>
      rw [if_pos (by rw [ha, hk]), interp_ask_then]
      obtain ⟨r2, u2, hr2, g1, g2⟩ := hf (.taskFile false dma (securityTf false dma p c r.data.length) r.data secs) ⟨hk, rfl, h1⟩
        env (hist ++ u)
      rw [OutT.run_bind_ret env _ hr2]
      have hs2 : storeInto r.data r2.data = r2.data := storeInto_full _ _ (by rw [h1, g1])
      rw [hs2]
      refine ⟨_, _, rfl, g1, fun h => ?_⟩
      show L (u ++ (u2 ++ [])) r2.data r2.behind
      rw [List.append_nil]
      exact hL _ _ _ _ (g2 h)
    | false =>
      rw [if_neg (by rw [ha, hk]; decide), if_pos (by rw [hn, WinDrv.isNvme, hk]; rfl), interp_ask_then]
      obtain ⟨r2, u2, hr2, g1, g2⟩ := hf (.nvmeAdmin (securityNvme false p c r.data))
        ⟨by rw [WinDrv.isNvme, hk]; rfl, p, c, r.data, rfl, h1⟩ env (hist ++ u)
      rw [OutT.run_bind_ret env _ hr2]
      have hs2 : storeInto r.data r2.data = r2.data := storeInto_full _ _ (by rw [h1, g1])
      rw [hs2]
      refine ⟨_, _, rfl, g1, fun h => ?_⟩
      show L (u ++ (u2 ++ [])) r2.data r2.behind
      rw [List.append_nil]
      exact hL _ _ _ _ (g2 h)

/-- The exchanges end with malformed discovery data. -/
def EndsBad (L : Prog.Trace Q R → Bytes → (Nat → Byte) → Prop) (t : Prog.Trace Q R) : Prop :=
  ∃ d b, L t d b ∧ Malformed d

theorem later_bad (hL : LaterGot L) : Later (EndsBad L) := by
  rintro s t ⟨d, b, h1, h2⟩
  exact ⟨d, b, hL _ _ _ _ h1, h2⟩

theorem discovery_serves (hL : LaterGot L) (hf : Serves k f L) {h : Handle} {d : Driver} (hd : h.dh = some d)
    (ha : d.ata = k.isAta) (hn : d.nvme = k.isNvme) (hm : h.info.level0.made = true) :
    Sane (fun x => x.1.dh = h.dh ∧ x.1.info.level0.made = true) (EndsBad L) (OutT.interp f h.tcgDiscovery0) := by
  intro env hist
  obtain ⟨rep, u, hr, hl, hg⟩ := security_serves hL hf hd ha hn false 0x01 0x0001 (zeros Handle.discoverySize) 3 (zeros_length _) env hist
  unfold Handle.tcgDiscovery0
  rw [OutT.interp_bind, OutT.run_bind_ret env hist hr]
  cases he : rep.err with
  | some e => exact .inl ⟨_, rfl, rfl, hm⟩
  | none =>
    dsimp only
    rcases parse_spec h.info.level0 rep.data rep.behind hm with ⟨-, hp⟩ | ⟨g, ho, hp⟩ | ⟨g, ds, hc, hp⟩
    · rw [hp]
      exact .inl ⟨(({ h with info := Handle.afterParse h.info h.info.level0 } : Handle),
        some (GoErr.msg "invalid data: length overflow")), rfl, rfl, hm⟩
    · rw [hp]
      refine .inr ⟨rfl, rep.data, rep.behind, ?_, by omega, ho⟩
      show L (u ++ []) _ _
      rw [List.append_nil]
      exact hg he
    · rw [hp]
      refine .inl ⟨(({ h with info := Handle.afterParse h.info (learn rep.data rep.behind 32 h.info.level0 ds) } : Handle), none), rfl, rfl, ?_⟩
      show (learn rep.data rep.behind 32 h.info.level0 ds).made = true
      rw [learn_made]
      exact hm

theorem init_serves (hL : LaterGot L) (hf : Serves k f L) {h : Handle} {d : Driver} (hd : h.dh = some d)
    (ha : d.ata = k.isAta) (hn : d.nvme = k.isNvme) (hia : d.ata = true → 512 ≤ d.identity.length)
    (hin : d.nvme = true → 4096 ≤ d.identity.length) :
    Sane (fun x => x.1.dh = h.dh ∧ x.1.info.level0.made = true) (EndsBad L) (OutT.interp f h.init) := by
  obtain ⟨i1, i2, h1, h2, -⟩ := parts_ok h d hd hia hin
  have hprog : OutT.interp f h.init = (OutT.interp f (Handle.tcgDiscovery0 { h with info := Handle.makeMap i2 }) >>= fun x =>
      OutT.ret (x.1, none)) := by
    unfold Handle.init
    rw [h1]
    show OutT.interp f (OutT.lift (initNvmePart h.dh i1) >>= _) = _
    rw [h2]
    exact OutT.interp_bind f (Handle.tcgDiscovery0 { h with info := Handle.makeMap i2 }) (fun x => OutT.ret (x.1, none))
  rw [hprog]
  exact sane_bind (later_bad hL) (discovery_serves hL hf (h := { h with info := Handle.makeMap i2 }) hd ha hn rfl)
    (fun x hx => sane_ret hx)
end

/-- While a drive is opened. -/
def GotW (k : WinDrv) (u : Prog.Trace WReq WRep) (d : Bytes) (_ : Nat → Byte) : Prop :=
  ∃ before x, u = before ++ [x] ∧ Received k x d

theorem later_gotW (k : WinDrv) : LaterGot (GotW k) := by
  rintro s t d b ⟨before, x, rfl, h⟩
  exact ⟨s ++ before, x, by rw [List.append_assoc], h⟩

theorem winDrv_serves (k : WinDrv) (addr base : Nat) (behind : Nat → Byte) : Serves k (winDrv k addr base behind) (GotW k) := by
  intro q hq env hist
  obtain ⟨rep, u, h1, -, h2, h3⟩ := winDrv_received k addr base behind q hq env hist
  exact ⟨rep, u, h1, h2, h3⟩

/-- Through a handle. -/
def GotA (k : WinDrv) (t : Prog.Trace WAReq WARep) (d : Bytes) (b : Nat → Byte) : Prop := ∃ q, EndsReceived k t q d b

theorem later_gotA (k : WinDrv) : LaterGot (GotA k) := by
  rintro s t d b ⟨q, h⟩
  cases h with
  | @mk before mid pl a q d tries got =>
    refine ⟨q, ?_⟩
    have : s ++ (before ++ (WAReq.place, pl) :: mid ++ [(WAReq.sys q, a)]) =
        (s ++ before) ++ (WAReq.place, pl) :: mid ++ [(WAReq.sys q, a)] := by simp
    rw [this]
    exact .mk tries got

theorem sysCalls_last {u : Prog.Trace WReq WRep} {x : WReq × WRep} {t : Prog.Trace WAReq WARep} (h : SysCalls (u ++ [x]) t) :
    ∃ mid a, t = mid ++ [(.sys x.1, a)] ∧ a.sys = x.2 ∧ ∀ y ∈ mid, ∃ q, y.1 = .sys q := by
  unfold SysCalls at h
  rw [List.map_append] at h
  obtain ⟨mid, l, rfl, h1, h2⟩ := List.map_eq_append_iff.1 h
  obtain ⟨y, l', rfl, h3, h4⟩ := List.map_eq_cons_iff.1 h2
  have : l' = [] := List.map_eq_nil_iff.1 h4
  subst this
  injection h3 with e1 e2
  refine ⟨mid, y.2, by rw [← e1], e2, fun z hz => ?_⟩
  have hm : (z.1, z.2.sys) ∈ u.map (fun x => (WAReq.sys x.1, x.2)) := by
    rw [← h1]
    exact List.mem_map.2 ⟨z, hz, rfl⟩
  obtain ⟨v, -, hv⟩ := List.mem_map.1 hm
  injection hv with e3 e4
  exact ⟨v.1, e3.symm⟩

theorem winDrvPlaced_serves (k : WinDrv) : Serves k (winDrvPlaced k) (GotA k) := by
  intro q hq env hist
  unfold winDrvPlaced
  rw [OutT.run_ask_bind]
  obtain ⟨pl, hpl⟩ : ∃ pl, pl = env hist .place := ⟨_, rfl⟩
  rw [← hpl]
  obtain ⟨env', h1, h2⟩ := winCall_run (winDrv k pl.addr pl.base pl.behind q) env (hist ++ [(.place, pl)])
  obtain ⟨rep, u, g1, g2, g3, g4⟩ := winDrv_received k pl.addr pl.base pl.behind q hq env' []
  rw [g1] at h1 h2
  generalize OutT.run env (hist ++ [(.place, pl)]) (OutT.interp winCall (winDrv k pl.addr pl.base pl.behind q)) = r at h1 h2
  obtain ⟨o, t⟩ := r
  dsimp only at h1 h2
  subst h1
  refine ⟨rep, _, rfl, g3, fun he => ?_⟩
  obtain ⟨before, x, rfl, hx⟩ := g4 he
  obtain ⟨mid, a, rfl, h3, h4⟩ := sysCalls_last h2
  refine ⟨x.1, ?_⟩
  rw [g2]
  have := EndsReceived.mk (k := k) (before := []) (pl := pl) (a := a) h4 (q := x.1) (d := rep.data) (by rw [h3]; exact hx)
  exact this

/-! ## Opening -/

/-- A driver the factory accepted: it has the interface of its kind, and its identity block is complete. -/
def WinWhole (x : WinDrv × Driver) : Prop :=
  x.2.ata = x.1.isAta ∧ x.2.nvme = x.1.isNvme ∧ (x.2.ata = true → 512 ≤ x.2.identity.length) ∧
    (x.2.nvme = true → 4096 ≤ x.2.identity.length)

/-- An opener that always returns. -/
def OpensSane {α : Type} (B : α → Prop) (p : WinM (Res α)) : Prop :=
  Sane (fun r => r ≠ .panic ∧ ∀ a, r = .ok a → B a) (fun _ => False) p

theorem asOpener_opens {α : Type} {B : α → Prop} (open' : Nat → WinM (Res α)) (wrap : Nat → α → WinDrv × Driver) (h : Nat)
    (ho : OpensSane B (open' h)) (hw : ∀ a, B a → WinWhole (wrap h a)) : OpensSane WinWhole (asOpener open' wrap h) := by
  unfold asOpener
  refine sane_bind (fun _ _ h => h) ho (fun r hr => ?_)
  cases r with
  | panic => exact absurd rfl hr.1
  | err e => exact sane_ret ⟨(fun h => by cases h), (fun a h => by cases h)⟩
  | ok a => exact sane_ret ⟨(fun h => by cases h), (fun x h => by cases h; exact hw a (hr.2 a rfl))⟩

theorem nvmeWin_opens (h : Nat) : OpensSane (fun x => x.2.length = 4096) (nvmeWinOpen h) := by
  intro env hist
  left
  obtain ⟨r, ⟨e, -, hr⟩ | ⟨-, text, r2, -, ⟨e, -, hr⟩ | ⟨-, inb, r3, hl, -, ⟨-, hr⟩ | ⟨e, r4, -, hr⟩⟩⟩⟩ := nvmeWin_open h env hist
  · exact ⟨_, by rw [hr], (fun h => by cases h), (fun a h => by cases h)⟩
  · exact ⟨_, by rw [hr], (fun h => by cases h), (fun a h => by cases h)⟩
  · refine ⟨_, by rw [hr], (fun h => by cases h), fun a h => ?_⟩
    have := Res.ok.inj h
    rw [← this]
    show (miniportView (delivered inb r3.out)).data.length = 4096
    rw [miniportView_data, slice, List.length_take, List.length_drop, delivered_length, hl]
    omega
  · exact ⟨_, by rw [hr], (fun h => by cases h), (fun a h => by cases h)⟩

theorem windowsNvme_opens (h : Nat) : OpensSane (fun x => x.length = 4096) (windowsNvmeOpen h) := by
  intro env hist
  left
  obtain ⟨inb, r, -, hr⟩ := windowsNvme_open h env hist
  cases he : r.err with
  | some e =>
    rw [he] at hr
    exact ⟨_, by rw [hr], (fun h => by cases h), (fun a h => by cases h)⟩
  | none =>
    rw [he] at hr
    refine ⟨_, by rw [hr], (fun h => by cases h), fun a h => ?_⟩
    have := Res.ok.inj h
    rw [← this]
    show (delivered (zeros 4096) (r.out.drop 48)).length = 4096
    rw [delivered_length, zeros_length]

theorem pass_returns (w : WinPass) (hw : w.Ok) (h : Nat) (rw : Bool) (data : Bytes) (addr base : Nat) (hd : data ≠ [])
    (env : Prog.Env WReq WRep) (hist : Prog.Trace WReq WRep) :
    ∃ e d u, OutT.run env hist (w.run h rw data addr base) = (.ret (e, d), u) ∧ d.length = data.length := by
  obtain ⟨a, c, d1, p, q, r, -, -, -, -, -, h2, -, -, -, -, h6, h7⟩ := winPass_run w hw h rw data addr base env hist hd
  cases he : r.err with
  | none => exact ⟨_, _, _, h6 he, h2⟩
  | some e =>
    obtain ⟨p2, q2, r2, -, -, -, -, h8, h9⟩ := h7 e he
    cases he2 : r2.err with
    | some e2 => exact ⟨_, _, _, h9 e2 he2, h2⟩
    | none =>
      refine ⟨_, _, _, h8 he2, ?_⟩
      split
      · exact h2
      · rw [delivered_length, h2]

theorem identify_opens (op : PassOp) (h base base' secs : Nat) (task : Bytes → Nat → WinM (Option GoErr × Bytes))
    (ht : ∀ d a, task d a = (passOf op false secs).run h false d a base') : OpensSane (fun x => x.length = 512) (winIdentify base task) := by
  intro env hist
  left
  obtain ⟨e, d, u, hr, hl⟩ := pass_returns (passOf op false secs) (passOf_ok op false secs) h false (zeros 512)
    (newAlignedBuffer base 512 512).pointer base' (by intro h; have := congrArg List.length h; rw [zeros_length] at this; cases this) env hist
  rw [zeros_length] at hl
  rw [winIdentify_run base task env hist u e d hl (by rw [ht]; exact hr)]
  cases e with
  | some e => exact ⟨_, rfl, (fun h => by cases h), (fun a h => by cases h)⟩
  | none => exact ⟨_, rfl, (fun h => by cases h), (fun a h => by cases h; exact hl)⟩

theorem winOpeners_opens (b b' h : Nat) : ∀ d ∈ winOpeners b b', OpensSane WinWhole (d h) := by
  intro d hd
  simp only [winOpeners, List.mem_cons, List.not_mem_nil, or_false] at hd
  rcases hd with rfl | rfl | rfl | rfl
  · exact asOpener_opens _ _ _ (nvmeWin_opens h) (fun a ha => ⟨rfl, rfl, (fun h => by cases h), (fun _ => Nat.le_of_eq ha.symm)⟩)
  · exact asOpener_opens _ _ _ (windowsNvme_opens h) (fun a ha => ⟨rfl, rfl, (fun h => by cases h), (fun _ => Nat.le_of_eq ha.symm)⟩)
  · exact asOpener_opens (fun h => winScsiOpen h b b') _ _ (identify_opens (.scsiTask winIdentifyTf) h b b' 3 _ (fun d a => rfl))
      (fun a ha => ⟨rfl, rfl, (fun _ => Nat.le_of_eq ha.symm), (fun h => by cases h)⟩)
  · exact asOpener_opens (fun h => winAtaOpen h b b') _ _ (identify_opens (.ataTask winIdentifyTf) h b b' 10 _ (fun d a => rfl))
      (fun a ha => ⟨rfl, rfl, (fun _ => Nat.le_of_eq ha.symm), (fun h => by cases h)⟩)

theorem winFirst_sane (h : Nat) (ds : List WinOpener) (hr : ∀ d ∈ ds, OpensSane WinWhole (d h)) :
    Sane (fun x => ∀ y, x = some y → WinWhole y) (fun _ => False) (winFirst ds h) := by
  induction ds with
  | nil => exact sane_ret (fun y h => by cases h)
  | cons d ds ih =>
    unfold winFirst
    refine sane_bind (fun _ _ h => h) (hr d (by simp)) (fun r hr' => ?_)
    cases r with
    | panic => exact absurd rfl hr'.1
    | ok x => exact sane_ret (fun y h => by cases h; exact hr'.2 x rfl)
    | err e => exact ih (fun d hd => hr d (by simp [hd]))

/-- The exchanges of an open that panics. -/
def FatalIfReads (beyond : Nat → Byte) (t : Prog.Trace WReq WRep) : Prop := (∀ x ∈ t, WinReadsOnly x.1) → OpenFatal beyond t

theorem openFatal_later {beyond : Nat → Byte} {s t : Prog.Trace WReq WRep} (h : OpenFatal beyond t) : OpenFatal beyond (s ++ t) := by
  cases h with
  | layout got => rw [← List.append_assoc]; exact .layout got
  | descriptor got => rw [← List.append_assoc]; exact .descriptor got
  | badLayout got bad => rw [← List.append_assoc]; exact .badLayout got bad
  | badDescriptor got bad => rw [← List.append_assoc]; exact .badDescriptor got bad
  | discovery got reads bad => rw [← List.append_assoc]; exact .discovery got reads bad

theorem later_fatal (beyond : Nat → Byte) : Later (FatalIfReads beyond) := fun s t h hr =>
  openFatal_later (h (fun x hx => hr x (List.mem_append_right _ hx)))

theorem basicInfo_sane (beyond : Nat → Byte) (h : Nat) : Sane (fun _ => True) (FatalIfReads beyond) (winBasicInfo h) := by
  intro env hist
  obtain ⟨n, g, t, f, o, hf, hr, hc⟩ := win_basic_info h env hist
  rw [hr]
  cases f with
  | crashed =>
    right
    exact ⟨hc, fun _ => .layout (before := [_, _]) hf⟩
  | failed e => exact .inl ⟨_, hc, trivial⟩
  | data buf k =>
    obtain ⟨h1, -, h3⟩ := hc
    cases o with
    | ret a => exact .inl ⟨a, rfl, trivial⟩
    | panic => exact .inr ⟨rfl, fun _ => .badLayout (before := [_, _]) hf (h1.1 rfl)⟩
    | running => exact absurd rfl h3

theorem storageQuery_sane (beyond : Nat → Byte) (h : Nat) :
    Sane (fun r => r ≠ .panic) (FatalIfReads beyond) (winStorageQuery h beyond) := by
  intro env hist
  obtain ⟨t, f, o, hf, hr, hc⟩ := win_storage_query h beyond env hist
  rw [hr]
  cases f with
  | crashed => exact .inr ⟨hc, fun _ => .descriptor (before := []) hf⟩
  | failed e => exact .inl ⟨_, hc, fun h => by cases h⟩
  | data buf k =>
    dsimp only at hc
    split at hc
    · rename_i hb
      exact .inr ⟨hc, fun _ => .badDescriptor (before := []) hf hb⟩
    · obtain ⟨d, hd, -⟩ := hc
      exact .inl ⟨_, hd, fun h => by cases h⟩

/-- A handle as the factory makes it and as its methods leave it. -/
def WinSound (o : WinOpened) : Prop :=
  o.handle.dh = none ∨ ((∃ k, WinBound o k) ∧ o.handle.info.level0.made = true)

theorem openByHandle_sane (w : WinRun) (b b' h : Nat) (path : Bytes) :
    Sane WinSound (FatalIfReads w.beyond) (winOpenByHandle w (winOpeners b b') h path) := by
  unfold winOpenByHandle
  refine sane_bind (later_fatal _) (basicInfo_sane w.beyond h) (fun bi _ => ?_)
  dsimp only
  refine sane_bind (later_fatal _) (sane_never (winFirst_sane h _ (winOpeners_opens b b' h))) (fun x hx => ?_)
  cases x with
  | some y =>
    obtain ⟨k, d⟩ := y
    obtain ⟨ha, hn, hia, hin⟩ := hx _ rfl
    dsimp only at ha hn hia hin ⊢
    have plain : ∀ {α : Type} (p : DrvM α), (∃ a, OutT.interp (winDrv k w.addr w.base w.behind) p = OutT.ret a) →
        Sane (fun _ => True) (FatalIfReads w.beyond) (OutT.interp (winDrv k w.addr w.base w.behind) p) := by
      rintro α p ⟨a, h⟩
      rw [h]
      exact sane_ret trivial
    refine sane_bind (later_fatal _) (plain _ ⟨_, rfl⟩) (fun t _ => ?_)
    refine sane_bind (later_fatal _) (plain _ ⟨_, rfl⟩) (fun nm _ => ?_)
    refine sane_bind (later_fatal _) (sane_mono (fun _ h => h) (fun t ht => ?_)
      (init_serves (later_gotW k) (winDrv_serves k w.addr w.base w.behind) (h := { (winBasicOpened path bi).handle with dh := some d }) rfl ha hn hia hin)) (fun y hy => ?_)
    · obtain ⟨dd, bb, ⟨before, x, rfl, hx⟩, hb⟩ := ht
      exact fun hr => .discovery hx (hr x (by simp)) hb
    · refine sane_ret (.inr ⟨⟨k, rfl, d.identity, ?_⟩, hy.2⟩)
      show y.1.dh = _
      rw [hy.1]
      cases d
      dsimp only at ha hn
      rw [ha, hn]
  | none =>
    dsimp only
    refine sane_bind (later_fatal _) (storageQuery_sane w.beyond h) (fun r hr => ?_)
    cases r with
    | panic => exact absurd rfl hr
    | err e => exact sane_ret (.inl rfl)
    | ok d => exact sane_ret (.inl rfl)

theorem openDevice_sane (path : Bytes) (C : Prog.Trace WReq WRep → Prop) : Sane (fun r => r ≠ .panic) C (winOpenDevice path) := by
  intro env hist
  left
  unfold winOpenDevice
  split
  · exact ⟨_, rfl, fun h => by cases h⟩
  · rw [OutT.run_ask_bind]
    cases (env hist (.openDevice path)).err with
    | some e => exact ⟨_, rfl, fun h => by cases h⟩
    | none => exact ⟨_, rfl, fun h => by cases h⟩

theorem openPath_sane (w : WinRun) (path : Bytes) :
    Sane (fun r => r ≠ .panic ∧ ∀ o, r = .ok o → WinSound o) (OpenFatal w.beyond) (winOpenPath w path) := by
  have h : Sane (fun r => r ≠ .panic ∧ ∀ o, r = .ok o → WinSound o) (FatalIfReads w.beyond) (winOpenPath w path) := by
    unfold winOpenPath winOpenByPath
    refine sane_bind (later_fatal _) (openDevice_sane path _) (fun r hr => ?_)
    cases r with
    | panic => exact absurd rfl hr
    | err e => exact sane_ret ⟨(fun h => by cases h), (fun a h => by cases h)⟩
    | ok h =>
      dsimp only
      refine sane_bind (later_fatal _) (openByHandle_sane w _ _ h path) (fun o ho => ?_)
      exact sane_ret ⟨(fun h => by cases h), (fun a h => by cases h; exact ho)⟩
  intro env hist
  rcases h env hist with h | ⟨h1, h2⟩
  · exact .inl h
  · exact .inr ⟨h1, h2 (OutT.asks_run (winOpenByPath_reads w _ _ path) env hist)⟩

end Dparm
