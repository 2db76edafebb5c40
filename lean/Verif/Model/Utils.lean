import Verif.Model.Base
/-!
# internal/utils.go and Go string trimming
-/
namespace Dparm

/-- internal/utils.go:31-37 `AtaSwapWordEndian` (in place; the new content is returned). An odd last byte
makes `input[i+1]` panic; what the slice then holds: `ataSwapKept`. -/
def ataSwapWordEndian : Bytes → P Bytes
  | [] => .ret []
  | [_] => .panic
  | a :: b :: rest => match ataSwapWordEndian rest with
    | .panic => .panic
    | .ret r => .ret (b :: a :: r)

/-- internal/utils.go:31-37 `AtaSwapWordEndian` under `recover`: what the slice holds afterwards, and whether it panicked; the index of line
34 is checked before anything is written in that round. -/
def ataSwapKept : Bytes → Bytes × Bool
  | [] => ([], false)
  | [a] => ([a], true)
  | a :: b :: rest => (b :: a :: (ataSwapKept rest).1, (ataSwapKept rest).2)

/-- internal/utils.go:39-41 `AtaSwap16` -/
def ataSwap16 (x : BitVec 16) : BitVec 16 := ((x &&& 0x00ff#16) <<< 8) ||| ((x &&& 0xff00#16) >>> 8)

/-- internal/utils.go:43-45 `AtaSwap32` -/
def ataSwap32 (x : BitVec 32) : BitVec 32 :=
  ((x &&& 0x000000ff#32) <<< 24) ||| ((x &&& 0x0000ff00#32) <<< 8) |||
  ((x &&& 0x00ff0000#32) >>> 8) ||| ((x &&& 0xff000000#32) >>> 24)

/-- internal/utils.go:10-15 `Ternary` -/
def ternary {α : Type} (c : Bool) (a b : α) : α := if c then a else b

/-- common/drive_handle.go:15 `trimSet` = " \t\r\n\x00" -/
def trimSet : Bytes := [0x20#8, 0x09#8, 0x0d#8, 0x0a#8, 0x00#8]

/-- Go `strings.Trim(s, trimSet)`: the cutset is ASCII, so trimming works byte by byte
(`trimLeftASCII(trimRightASCII(s))`). -/
def goTrim (s : Bytes) : Bytes :=
  ((s.reverse.dropWhile (fun b => trimSet.contains b)).reverse).dropWhile (fun b => trimSet.contains b)

end Dparm
