import Verif.Model.Device
import Verif.Spec.Numbers
/-!
# Specification: the descriptors of a discovery response

A descriptor is: two bytes of feature code (big-endian), one version byte, one length byte `n`, `n` bytes.
-/
namespace Dparm.Spec
open Dparm

/-- a complete descriptor -/
def IsDescriptor (d : Bytes) : Prop :=
  ∃ a b v n body, d = a :: b :: v :: n :: body ∧ body.length = n.toNat

/-- its feature code -/
def descCode (d : Bytes) : Nat := beVal (d.take 2)

/-- `ds` are the descriptors stored one after another from `start`, up to the announced end: they lie in
the buffer, reach the announced end, and each of them begins before it. -/
def Cut (buf : Bytes) (start announced : Nat) (ds : List Bytes) : Prop :=
  (∀ d ∈ ds, IsDescriptor d) ∧ ds.flatten <+: buf.drop start ∧
  announced ≤ start + ds.flatten.length ∧
  ∀ front last, ds = front ++ [last] → start + front.flatten.length < announced

/-- Reading descriptors one after another from `start`, one that begins before the announced end does not
fit into the buffer. -/
def Overruns (buf : Bytes) (start announced : Nat) : Prop :=
  ∃ front : List Bytes, (∀ d ∈ front, IsDescriptor d) ∧ front.flatten <+: buf.drop start ∧
    start + front.flatten.length < announced ∧
    ∀ d, IsDescriptor d → ¬ d <+: buf.drop (start + front.flatten.length)

/-- the last descriptor with a given code -/
def lastWith (ds : List Bytes) (code : Nat) : Option Bytes :=
  (ds.filter (fun d => descCode d == code)).getLast?

/-- The eight feature flags, each with the code of the feature it stands for. -/
def flags (i : Level0) : List (Nat × Bool) :=
  [(0x0001, i.tper), (0x0002, i.locking), (0x0003, i.geometry), (0x0200, i.opalV100), (0x0203, i.opalV200),
   (0x0100, i.enterprise), (0x0201, i.singleUser), (0x0202, i.dataStore)]

/-- Nothing is known yet, but the table of raw features exists (the state `Init` starts discovery from). -/
def Fresh (i : Level0) : Prop := i.made = true ∧ (∀ b ∈ flags i, b.2 = false) ∧ ∀ c, i.raw c = none

/-- Some descriptor has the code. -/
def Reports (ds : List Bytes) (code : Nat) : Prop := ∃ d ∈ ds, descCode d = code

/-- announced length of a discovery response -/
def announcedEnd (buf : Bytes) : Nat := beVal (buf.take 4)

end Dparm.Spec
