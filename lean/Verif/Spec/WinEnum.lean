import Verif.Spec.WinFactory
/-!
# Specification: enumerating drives on Windows, and the handles used
-/
namespace Dparm.Spec
open Dparm

/-- The handles a driver has opened for itself and keeps. -/
def keptBy : WinDrv → List Nat
  | .nvmeWin _ sh => [sh]
  | _ => []

/-- Of a drive: those of its driver; without a driver none. -/
def keptOf (o : WinOpened) : List Nat := match o.drv with
  | some k => keptBy k
  | none => []

/-- The text in a SP_DEVICE_INTERFACE_DETAIL_DATA_W: 16-bit characters from offset 4 to the first NUL (or to the end). -/
structure DetailText (buf : Bytes) (text : List (BitVec 16)) : Prop where
  chars : ∀ i, i < text.length → 4 + 2 * i + 1 < buf.length ∧ (text.getD i 0).toNat = leVal (slice buf (4 + 2 * i) 2) ∧
    (text.getD i 0) ≠ 0
  stop : 4 + 2 * text.length + 1 < buf.length → leVal (slice buf (4 + 2 * text.length) 2) = 0

/-- Asking for the details of interface `i` with a buffer of `size` bytes: the exchanges, the size of the buffer afterwards,
and what it holds if the inquiry succeeded. If the buffer is too small, once again with the size Windows named, rounded
up to a multiple of 1024 (a 32-bit number). -/
inductive Details (set i size : Nat) : Prog.Trace WReq WRep → Nat → Option Bytes → Prop
  | failed (r : WRep) (e : GoErr) : r.err = some e → e ≠ .errno 122 →
      Details set i size [(.setupDetail set i size, r)] size none
  | found (r : WRep) (old : Bytes) : r.err = none → old.length = size →
      Details set i size [(.setupDetail set i size, r)] size (some (delivered old r.out))
  | againFailed (r r2 : WRep) (e : GoErr) (size' : Nat) : r.err = some (.errno 122) →
      size' = (r.n + 1023) / 1024 * 1024 % 2 ^ 32 → 0 < size' → r2.err = some e →
      Details set i size [(.setupDetail set i size, r), (.setupDetail set i size', r2)] size' none
  | again (r r2 : WRep) (old : Bytes) (size' : Nat) : r.err = some (.errno 122) →
      size' = (r.n + 1023) / 1024 * 1024 % 2 ^ 32 → 0 < size' → r2.err = none → old.length = size' →
      Details set i size [(.setupDetail set i size, r), (.setupDetail set i size', r2)] size' (some (delivered old r2.out))

/-- What device number `i` contributes: the exchanges and the drive found, if any. There is none if it has no disk
interface (error 259), if its details cannot be read, or if it cannot be opened. -/
inductive Device (open' : Bytes → WinM (Res WinOpened)) (conv : List (BitVec 16) → Bytes) (env : Prog.Env WReq WRep)
    (set i size : Nat) (hist : Prog.Trace WReq WRep) : Prog.Trace WReq WRep → Nat → Option WinOpened → Prop
  | noInterface (d f : WRep) : d.err = none → f.err = some (.errno 259) →
      Device open' conv env set i size hist [(.setupDevice set i, d), (.setupInterface set i, f)] size none
  | noDetails (d f : WRep) (t : Prog.Trace WReq WRep) (size' : Nat) : d.err = none → f.err = none →
      Details set i size t size' none →
      Device open' conv env set i size hist ((.setupDevice set i, d) :: (.setupInterface set i, f) :: t) size' none
  | notOpened (d f : WRep) (t u : Prog.Trace WReq WRep) (size' : Nat) (buf : Bytes) (text : List (BitVec 16)) (e : GoErr) :
      d.err = none → f.err = none → Details set i size t size' (some buf) → DetailText buf text →
      OutT.run env (hist ++ (.setupDevice set i, d) :: (.setupInterface set i, f) :: t) (open' (conv text)) =
        (.ret (.err e), u) →
      Device open' conv env set i size hist ((.setupDevice set i, d) :: (.setupInterface set i, f) :: t ++ u) size' none
  | opened (d f : WRep) (t u : Prog.Trace WReq WRep) (size' : Nat) (buf : Bytes) (text : List (BitVec 16)) (o : WinOpened) :
      d.err = none → f.err = none → Details set i size t size' (some buf) → DetailText buf text →
      OutT.run env (hist ++ (.setupDevice set i, d) :: (.setupInterface set i, f) :: t) (open' (conv text)) =
        (.ret (.ok o), u) →
      Device open' conv env set i size hist ((.setupDevice set i, d) :: (.setupInterface set i, f) :: t ++ u) size' (some o)

/-- Enumerating from device number `i` on: the drives of the devices in order, until there is no device `i`, or its
interface cannot be read (an error other than 259). -/
inductive Devices (open' : Bytes → WinM (Res WinOpened)) (conv : List (BitVec 16) → Bytes) (env : Prog.Env WReq WRep)
    (set : Nat) : Nat → Nat → Prog.Trace WReq WRep → Prog.Trace WReq WRep → List WinOpened → Prop
  | noMore (i size : Nat) (hist : Prog.Trace WReq WRep) (d : WRep) (e : GoErr) : d.err = some e →
      Devices open' conv env set i size hist [(.setupDevice set i, d)] []
  | stopped (i size : Nat) (hist : Prog.Trace WReq WRep) (d f : WRep) (e : GoErr) : d.err = none → f.err = some e →
      e ≠ .errno 259 → Devices open' conv env set i size hist [(.setupDevice set i, d), (.setupInterface set i, f)] []
  | more (i size size' : Nat) (hist t u : Prog.Trace WReq WRep) (o : Option WinOpened) (os : List WinOpened) :
      Device open' conv env set i size hist t size' o → Devices open' conv env set (i + 1) size' (hist ++ t) u os →
      Devices open' conv env set i size hist (t ++ u) (o.toList ++ os)

/-- The enumeration from device number `i` on breaks off with a panic after the drives listed: Windows names a buffer size
that becomes 0, or opening a device panics. -/
inductive DevicesPanic (open' : Bytes → WinM (Res WinOpened)) (conv : List (BitVec 16) → Bytes) (env : Prog.Env WReq WRep)
    (set : Nat) : Nat → Nat → Prog.Trace WReq WRep → Prog.Trace WReq WRep → List WinOpened → Prop
  | size (i size : Nat) (hist : Prog.Trace WReq WRep) (d f r : WRep) : d.err = none → f.err = none →
      r.err = some (.errno 122) → (r.n + 1023) / 1024 * 1024 % 2 ^ 32 = 0 →
      DevicesPanic open' conv env set i size hist
        [(.setupDevice set i, d), (.setupInterface set i, f), (.setupDetail set i size, r)] []
  | opening (i size : Nat) (hist : Prog.Trace WReq WRep) (d f : WRep) (t u : Prog.Trace WReq WRep) (size' : Nat)
      (buf : Bytes) (text : List (BitVec 16)) :
      d.err = none → f.err = none → Details set i size t size' (some buf) → DetailText buf text →
      OutT.run env (hist ++ (.setupDevice set i, d) :: (.setupInterface set i, f) :: t) (open' (conv text)) = (.panic, u) →
      DevicesPanic open' conv env set i size hist ((.setupDevice set i, d) :: (.setupInterface set i, f) :: t ++ u) []
  | more (i size size' : Nat) (hist t u : Prog.Trace WReq WRep) (o : Option WinOpened) (os : List WinOpened) :
      Device open' conv env set i size hist t size' o → DevicesPanic open' conv env set (i + 1) size' (hist ++ t) u os →
      DevicesPanic open' conv env set i size hist (t ++ u) (o.toList ++ os)

end Dparm.Spec
