import Verif.Model.Partition
import Verif.Spec.WinFactory
/-!
# What callers may rely on for a `Partition`
-/
namespace Dparm.Spec
open Dparm

/-- A GUID text as promised by common/types.go:22-27: in braces, without small letters. -/
structure GuidForm (s : Bytes) : Prop where
  inner : ∃ m, s = [0x7b] ++ m ++ [0x7d]
  capital : ∀ c ∈ s, ¬ (0x61 ≤ c.toNat ∧ c.toNat ≤ 0x7a)

/-- The answers agree: the style is one of the three, the MBR part is there exactly for style MBR, the GPT part exactly for
style GPT, and its two GUIDs have the promised form. -/
structure SoundView (v : PartView) : Prop where
  style : v.style = 0 ∨ v.style = 1 ∨ v.style = 2
  mbr : v.mbr ≠ none ↔ v.style = 1
  gpt : v.gpt ≠ none ↔ v.style = 2
  guids : ∀ ty id, v.gpt = some (ty, id) → GuidForm ty ∧ GuidForm id

end Dparm.Spec
