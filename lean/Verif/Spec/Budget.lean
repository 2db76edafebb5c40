import Verif.Model.Client
/-!
# Vocabulary for how much a call costs
-/
namespace Dparm.Spec
open Dparm

/-- Whether an exchange is a system call (go-diskfs counts as one; reading the clock, sleeping and the placement of buffers
by the Go runtime do not count). -/
def isSystemCall : AReq → Bool
  | .sys .place => false
  | .sys _ => true
  | _ => false

/-- The number of system calls in a history. -/
def systemCalls (t : Prog.Trace AReq ARep) : Nat := t.countP (fun x => isSystemCall x.1)

/-- The number of names an exchange delivered when it was a listing of the directory `dir`. -/
def namesIn (dir : Bytes) (x : AReq × ARep) : Nat :=
  match x.1 with
  | .sys (.os (.readDir p)) => if p = dir then x.2.sys.os.names.length else 0
  | _ => 0

/-- The number of names all listings of the directory `dir` in a history delivered. -/
def listed (dir : String) (t : Prog.Trace AReq ARep) : Nat := (t.map (namesIn (ascii dir))).sum

/-- How many system calls a call may make, given its exchanges `t`. -/
def budget (t : Prog.Trace AReq ARep) : LinuxCall → Nat
  | .openPath _ => 17 + listed "/dev/disk/by-id" t
  | .openVolume _ _ => 17 + listed "/dev/disk/by-id" t
  | .openPartition _ => 17 + listed "/dev/disk/by-id" t
  | .enumDrives => 1 + 19 * listed "/sys/block" t + listed "/dev/disk/by-id" t
  | .enumVolumes m => 6 * m.lines.length
  | .close _ => 1
  | .drivingType _ => 0
  | .driverName _ => 0
  | .ata .. => 2
  | .logPage _ _ _ _ size => (size + 4095) / 4096
  | .security .. => 4
  | .discover _ => 4
  | .revert .. => 2 * (4 * 403)
  | .defaultPassword .. => 2 * (4 * 403)
  | .tcg _ _ (.close _) => 0
  | .tcg .. => 4 * 403

/-- A system with a clock that never runs backwards and on which a sleep lasts at least as long as asked: `clk h` is the time
after the history `h`. -/
structure SystemClock (env : Prog.Env AReq ARep) (clk : Prog.Trace AReq ARep → Nat) : Prop where
  now : ∀ h, (env h .now).time = clk h
  mono : ∀ h q, clk h ≤ clk (h ++ [(q, env h q)])
  sleep : ∀ h ns, clk h + ns ≤ clk (h ++ [(.sleep ns, env h (.sleep ns))])

end Dparm.Spec
