import Verif.Model.Volume
import Verif.Model.WinVolume
/-!
# The `Partition` interface (common/types.go:29-40) of both platforms
-/
namespace Dparm

/-- The five answers of a value of the interface `Partition` (common/types.go:29-40). -/
structure PartView where
  start : BitVec 64
  size : BitVec 64
  /-- common/types.go:9-15: 0 raw, 1 MBR, 2 GPT -/
  style : Nat
  /-- `none`: nil -/
  mbr : Option (Byte × Bool)
  gpt : Option (Bytes × Bytes)
deriving DecidableEq

/-- plat_linux/volume.go:182-200: `GetStart`, `GetSize`, `GetPartitionStyle`, `GetMbrInfo`, `GetGptInfo`. -/
def PartInfo.view (p : PartInfo) : PartView :=
  { start := p.start, size := p.size, style := p.style, mbr := p.mbrInfo, gpt := p.gptInfo }

/-- plat_win/volume.go:220-252: the same; the two infos are only handed out for the matching style. -/
def WinPart.view (p : WinPart) : PartView :=
  { start := p.start, size := p.length, style := p.partitionStyle,
    mbr := if p.style = 0 then p.mbrInfo else none,
    gpt := if p.style = 1 then p.gptInfo else none }

end Dparm
