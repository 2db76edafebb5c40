import Verif.Spec.TokenGrammar
/-!
# Specification: cutting memory into tokens

`announcedLen m i` is the number of bytes the token starting at `i` claims to occupy, read off its
header in plain arithmetic. `Tiles m e i spans` says: the list of `(start, length)` pairs covers memory
contiguously from `i`, each token having its announced length, starting before `e`, and the covering
stops as soon as `e` is reached or passed.
-/
namespace Dparm.Spec
open Dparm

def announcedLen (m : Nat → Byte) (i : Nat) : Nat :=
  let b := (m i).toNat
  if b < 128 then 1
  else if b < 192 then 1 + b % 16
  else if b < 224 then 2 + ((b % 8) * 256 + (m (i + 1)).toNat)
  else if b < 240 then 4 + ((m (i + 1)).toNat * 65536 + (m (i + 2)).toNat * 256 + (m (i + 3)).toNat)
  else 1

inductive Tiles (m : Nat → Byte) (e : Nat) : Nat → List (Nat × Nat) → Prop where
  | nil {i : Nat} (h : e ≤ i) : Tiles m e i []
  | cons {i : Nat} {rest : List (Nat × Nat)} (h : i < e)
      (t : Tiles m e (i + announcedLen m i) rest) : Tiles m e i ((i, announcedLen m i) :: rest)

/-- the bytes of a span -/
def bytesAt (m : Nat → Byte) (s : Nat × Nat) : Bytes := (List.range s.2).map (fun k => m (s.1 + k))

/-- a span holding just the empty atom FF -/
def isEmptyAtom (m : Nat → Byte) (s : Nat × Nat) : Bool := s.2 == 1 && m s.1 == 0xff

/-- the tokens a receiver sees: all spans except empty atoms -/
def visible (m : Nat → Byte) (spans : List (Nat × Nat)) : List Bytes :=
  (spans.filter (fun s => !isEmptyAtom m s)).map (bytesAt m)

/-- memory `m` holds the bytes `bs` from index `i` on -/
def HoldsAt (m : Nat → Byte) (i : Nat) (bs : Bytes) : Prop := ∀ k (h : k < bs.length), m (i + k) = bs[k]

end Dparm.Spec
