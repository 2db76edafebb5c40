import Verif.Model.WinClient
/-!
# Vocabulary for how much a call costs on Windows
-/
namespace Dparm.Spec
open Dparm

/-- Whether an exchange is a call of the Windows API (reading the clock, sleeping and the placement of buffers by the Go
runtime are not). -/
def isWinApiCall : WAReq → Bool
  | .sys _ => true
  | _ => false

/-- The number of API calls in a history. -/
def apiCalls (t : Prog.Trace WAReq WARep) : Nat := t.countP (fun x => isWinApiCall x.1)

/-- The number of volumes the current search (since the last `FindFirstVolume`) has found. -/
def volumesFound (t : Prog.Trace WAReq WARep) : Nat :=
  t.foldl (fun k x => match x.1 with
    | .sys .firstVolume => if x.2.sys.err = none then 1 else 0
    | .sys (.nextVolume _) => if x.2.sys.err = none then k + 1 else k
    | _ => k) 0

/-- A Windows with at most `n` disks (indices in a device list end at `n`) and at most `n` volumes (a search that found `n`
finds no more). -/
structure ListsAtMost (env : Prog.Env WAReq WARep) (n : Nat) : Prop where
  devices : ∀ h set i, n ≤ i → (env h (.sys (.setupDevice set i))).sys.err ≠ none
  volumes : ∀ h find, n ≤ volumesFound h → (env h (.sys (.nextVolume find))).sys.err ≠ none
  some : 1 ≤ n

/-- The bounds on rounds that the model puts on enumerations are large enough for `n` disks and volumes. -/
def enoughRounds (n : Nat) : WinClientCall → Prop
  | .enumDrives _ fuel => n < fuel
  | .enumVolumes _ fuel => n ≤ fuel
  | _ => True

/-- How many API calls a call may make on a Windows with at most `n` disks and volumes. -/
def winBudget (n : Nat) : WinClientCall → Nat
  | .openPath .. => 16
  | .openVolume .. => 16
  | .openPartition .. => 16
  | .enumDrives .. => 3 + 21 * n
  | .enumVolumes .. => 4 + 8 * n
  | .close .. => 1
  | .drivingType _ => 0
  | .driverName _ => 0
  | .ata .. => 2
  | .logPage .. => 1
  | .security .. => 4
  | .discover _ => 4
  | .revert .. => 2 * (4 * 403)
  | .defaultPassword .. => 2 * (4 * 403)
  | .tcg _ _ (.close _) => 0
  | .tcg .. => 4 * 403

/-- A clock that never runs backwards and on which a sleep lasts at least as long as asked: `clk h` is the time after the
history `h`. -/
structure WinClock (env : Prog.Env WAReq WARep) (clk : Prog.Trace WAReq WARep → Nat) : Prop where
  now : ∀ h, (env h .now).time = clk h
  mono : ∀ h q, clk h ≤ clk (h ++ [(q, env h q)])
  sleep : ∀ h ns, clk h + ns ≤ clk (h ++ [(.sleep ns, env h (.sleep ns))])

end Dparm.Spec
