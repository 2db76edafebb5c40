import Verif.Model.WinTcg
import Verif.Lemmas.Alike
import Verif.Lemmas.Win
import Verif.Lemmas.Handle
/-!
# Lemmas: TCG operations on a Windows drive
-/
namespace Dparm
open Spec

theorem winAfterFirst_write (d : Bytes) (ab : Option ABuf) (r : WRep) : winAfterFirst true d ab r = .ret d := by
  unfold winAfterFirst
  cases ab with
  | none => rfl
  | some ab => simp

/-- A write is a write of zeros, and leaves zeros. -/
theorem winPass_write_eq (w : WinPass) (h : Nat) (data : Bytes) (addr base : Nat) :
    w.run h true data addr base =
      (w.run h true (zeros data.length) addr base >>= fun x => OutT.ret (x.1, zeros data.length)) := by
  unfold WinPass.run
  simp only [if_true, zeros_length]
  generalize winFirstMem true (zeros data.length) addr base = m
  cases m with
  | panic => rfl
  | ret x =>
    obtain ⟨a, c, ab⟩ := x
    simp only [winAfterFirst_write]
    show (OutT.ask _ >>= _) = ((OutT.ask _ >>= _) >>= _)
    rw [OutT.bind_assoc']
    congr 1
    funext r
    cases r.err with
    | none => rfl
    | some e =>
      show (OutT.ask _ >>= _) = ((OutT.ask _ >>= _) >>= _)
      rw [OutT.bind_assoc']
      congr 1
      funext r2
      cases r2.err with
      | none => rfl
      | some e => rfl

theorem storeInto_zeros (buf : Bytes) : storeInto buf (zeros buf.length) = zeros buf.length :=
  storeInto_full _ _ (zeros_length _)

/-- A driver method that is a pass-through write, with its buffer placed. -/
def placedWrite (w : WinPass) (h : Nat) (data : Bytes) (g : Option GoErr × Bytes → (Nat → Byte) → DrvRep) : WAM DrvRep := do
  let pl ← OutT.ask .place
  OutT.interp winCall (do
    let x ← w.run h true data pl.addr pl.base
    OutT.ret (g x pl.behind) : WinM DrvRep)

theorem placedWrite_congr {α : Type} (w : WinPass) (h : Nat) (data data' : Bytes) (hl : data.length = data'.length)
    (g : Option GoErr × Bytes → (Nat → Byte) → DrvRep) (K K' : DrvRep → WAM α)
    (hK : ∀ e b, K (g (e, zeros data.length) b) = K' (g (e, zeros data.length) b)) :
    (placedWrite w h data g >>= K) = (placedWrite w h data' g >>= K') := by
  unfold placedWrite
  rw [OutT.bind_assoc', OutT.bind_assoc']
  congr 1
  funext pl
  rw [winPass_write_eq w h data, winPass_write_eq w h data', hl, OutT.bind_assoc', OutT.interp_bind,
    OutT.bind_assoc', OutT.bind_assoc']
  congr 1
  funext x
  have := hK x.1 pl.behind
  rw [hl] at this
  exact this

theorem interp_ask_then {Q R Q' R' α : Type} (f : Q → OutT Q' R' R) (q : Q) (k : R → OutT Q R α) :
    OutT.interp f (OutT.ask q >>= k : OutT Q R α) = (f q >>= fun r => OutT.interp f (k r)) := rfl

/-- What a security send does on a drive whose driver zeroes its outgoing buffers depends only on the length. -/
theorem winSend_eq (k : WinDrv) (hk : ∀ h sh, k ≠ .nvmeWin h sh) (hd : Handle) (id : Bytes)
    (hdh : hd.dh = some { ata := k.isAta, nvme := k.isNvme, identity := id }) (dma : Bool) (p : Byte) (c : BitVec 16)
    (data data' : Bytes) (hl : data.length = data'.length) (to : Nat) :
    OutT.interp (winDrvPlaced k) (hd.securityCommand true dma p c data to) =
      OutT.interp (winDrvPlaced k) (hd.securityCommand true dma p c data' to) := by
  have hz : ∀ d : Bytes, storeInto d d = d := fun d => storeInto_full _ _ rfl
  have z1 : storeInto data (zeros data.length) = zeros data.length := storeInto_zeros data
  have z2 : storeInto data' (zeros data.length) = zeros data.length := by rw [hl]; exact storeInto_zeros data'
  unfold Handle.securityCommand
  rw [hdh]
  dsimp only
  cases k with
  | nvmeWin h sh => exact absurd rfl (hk h sh)
  | ata h =>
    rw [interp_ask_then, interp_ask_then]
    have e1 : ∀ d : Bytes, winDrvPlaced (.ata h) (.sec true dma p c d to) =
        (OutT.ask WAReq.place >>= fun pl : WARep =>
          (OutT.ret { err := some (.msg "not supported"), data := d, behind := pl.behind } : WAM DrvRep)) := fun _ => rfl
    rw [e1, e1, OutT.bind_assoc', OutT.bind_assoc']
    congr 1
    funext pl
    have e2 : ∀ (r : DrvRep) (K : DrvRep → WAM SecRep), (OutT.ret r >>= K : WAM SecRep) = K r := fun _ _ => rfl
    rw [e2, e2]
    dsimp only
    rw [if_pos (show (WinDrv.ata h).isAta = true from rfl), if_pos (show (WinDrv.ata h).isAta = true from rfl), hz, hz, hl]
    exact placedWrite_congr (winAtaPass true (securityTf true dma p c data'.length) to) h data data' hl
      (fun x b => { err := x.1, data := x.2, behind := b, tf := securityTf true dma p c data'.length })
      (fun r2 => (OutT.ret { err := r2.err, data := storeInto data r2.data, behind := r2.behind } : WAM SecRep))
      (fun r2 => (OutT.ret { err := r2.err, data := storeInto data' r2.data, behind := r2.behind } : WAM SecRep))
      (fun e b => by dsimp only; rw [z1, z2])
  | scsi h =>
    have e1 : ∀ d : Bytes, winDrvPlaced (.scsi h) (.sec true dma p c d to) =
        placedWrite (winScsiPass true (winSecCdb true p c) to) h d (fun x b => { err := x.1, data := x.2, behind := b }) :=
      fun _ => rfl
    rw [interp_ask_then, interp_ask_then, e1, e1]
    refine placedWrite_congr (winScsiPass true (winSecCdb true p c) to) h data data' hl
      (fun x b => { err := x.1, data := x.2, behind := b }) _ _ (fun e b => ?_)
    dsimp only
    rw [z1, z2]
  | windowsNvme h =>
    have e1 : ∀ d : Bytes, winDrvPlaced (.windowsNvme h) (.sec true dma p c d to) =
        placedWrite (winScsiPass true (winSecCdb true p c) to) h d (fun x b => { err := x.1, data := x.2, behind := b }) :=
      fun _ => rfl
    rw [interp_ask_then, interp_ask_then, e1, e1]
    refine placedWrite_congr (winScsiPass true (winSecCdb true p c) to) h data data' hl
      (fun x b => { err := x.1, data := x.2, behind := b }) _ _ (fun e b => ?_)
    dsimp only
    rw [z1, z2]

theorem OutT.asks_interp_of {Q R Q' R' α : Type} {A : Q → Prop} {A' : Q' → Prop} (f : Q → OutT Q' R' R) {p : OutT Q R α}
    (hp : OutT.Asks A p) (hf : ∀ q, A q → OutT.Asks A' (f q)) : OutT.Asks A' (OutT.interp f p) := OutT.asks_interp f p hp hf

end Dparm
