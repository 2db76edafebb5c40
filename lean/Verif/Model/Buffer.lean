import Verif.Model.Base
/-!
# internal/aligned_buffer.go and internal/wrapped_buffer.go

Positions and limits are `Nat`: no caller passes negative values. The allocation is explicit (`mem`),
so that writes outside the window would be visible.
-/
namespace Dparm

/-- internal/aligned_buffer.go:8-20 `AlignedBuffer`.
`base` is the address of `buffer[0]`, `mem` the content of `buffer`, `off` = `pointer - &buffer[0]`;
`refBuf` is the window `mem[off : off+limit]`. -/
structure ABuf where
  base : Nat
  mem : Bytes
  off : Nat
  cap : Nat
  limit : Nat
  wpos : Nat
  rpos : Nat
deriving DecidableEq, Repr

/-- internal/aligned_buffer.go:22-24 `IsAlignedPointer`. -/
def isAlignedPointer (align ptr : Nat) : Bool := ptr % align == 0

/-- internal/aligned_buffer.go:26-46 `NewAlignedBuffer`; `base` is where the runtime put the allocation.
(`align = 0` panics on the modulo in Go; Lean's `%` would not, so theorems require `0 < align`.) -/
def newAlignedBuffer (base align size : Nat) : ABuf :=
  let tmp := base % align
  let pointer := if tmp > 0 then base + (align - tmp) else base
  { base := base, mem := List.replicate (align + size) 0, off := pointer - base,
    cap := size, limit := size, wpos := 0, rpos := 0 }

namespace ABuf

/-- `refBuf`, internal/aligned_buffer.go:43,52-54 (`GetBuffer`). -/
def buf (b : ABuf) : Bytes := slice b.mem b.off b.limit

/-- internal/aligned_buffer.go:48-50 `GetPointer`: the address of the first data byte. -/
def pointer (b : ABuf) : Nat := b.base + b.off

/-- internal/aligned_buffer.go:64-67 `SetLimit`. -/
def setLimit (b : ABuf) (n : Nat) : ABuf := { b with limit := n }

/-- internal/aligned_buffer.go:69-77 `Reset`. -/
def reset (b : ABuf) : ABuf :=
  { b with mem := copyAt b.mem b.off (List.replicate b.limit 0), wpos := 0, rpos := 0 }

/-- internal/aligned_buffer.go:79-81 `ResetWrite`. -/
def resetWrite (b : ABuf) : ABuf := { b with wpos := 0 }
/-- internal/aligned_buffer.go:83-85 `ResetRead`. -/
def resetRead (b : ABuf) : ABuf := { b with rpos := 0 }
/-- internal/aligned_buffer.go:87-89 `SetWritePos`. -/
def setWritePos (b : ABuf) (n : Nat) : ABuf := { b with wpos := n }
/-- internal/aligned_buffer.go:91-93 `SetReadPos`. -/
def setReadPos (b : ABuf) (n : Nat) : ABuf := { b with rpos := n }

/-- internal/aligned_buffer.go:95-104 `WriteByte`. -/
def writeByte (b : ABuf) (x : Byte) : ABuf × Option GoErr :=
  if b.wpos ≥ b.limit then (b, some .eof)
  else ({ b with mem := copyAt b.mem (b.off + b.wpos) [x], wpos := b.wpos + 1 }, none)

/-- internal/aligned_buffer.go:106-120 `Write`. `limit - writerPos` is a signed `int`: with the cursor
past the limit `available` is negative and the slice expression panics. -/
def write (b : ABuf) (p : Bytes) : P (ABuf × Nat × Option GoErr) :=
  if b.wpos > b.limit then .panic
  else
    let available := min (b.limit - b.wpos) p.length
    if available = 0 then .ret (b, 0, some .eof)
    else .ret ({ b with mem := copyAt b.mem (b.off + b.wpos) (p.take available),
                        wpos := b.wpos + available }, available, none)

/-- internal/aligned_buffer.go:122-136 `Read` into a slice of length `n`; the bytes delivered are returned. -/
def read (b : ABuf) (n : Nat) : P (ABuf × Bytes × Option GoErr) :=
  if b.rpos > b.limit then .panic
  else
    let available := min (b.limit - b.rpos) n
    if available = 0 then .ret (b, [], some .eof)
    else .ret ({ b with rpos := b.rpos + available },
               slice b.mem (b.off + b.rpos) available, none)

end ABuf

/-- internal/wrapped_buffer.go:7-30 `WrappedBuffer` around an existing slice (`NewWrappedBuffer`); `mem` is the slice's memory up to its
capacity, which a later `SetLimit` can make visible. -/
structure WBuf where
  mem : Bytes
  limit : Nat
  wpos : Nat
  rpos : Nat
deriving DecidableEq, Repr

/-- internal/wrapped_buffer.go:19-30 `NewWrappedBuffer` of a slice `m` with the bytes `behind` between its length and its capacity. -/
def newWrappedBuffer (m behind : Bytes) : WBuf := { mem := m ++ behind, limit := m.length, wpos := 0, rpos := 0 }

namespace WBuf
/-- internal/wrapped_buffer.go:36-39 `SetLimit`; `b.buffer[:limit]` panics beyond the slice's capacity. -/
def setLimit (b : WBuf) (n : Nat) : P WBuf :=
  if n > b.mem.length then .panic else .ret { b with limit := n }

/-- internal/wrapped_buffer.go:41-43 `ResetWrite`. -/
def resetWrite (b : WBuf) : WBuf := { b with wpos := 0 }
/-- internal/wrapped_buffer.go:45-47 `ResetRead`. -/
def resetRead (b : WBuf) : WBuf := { b with rpos := 0 }

/-- internal/wrapped_buffer.go:49-63 `Write`. -/
def write (b : WBuf) (p : Bytes) : P (WBuf × Nat × Option GoErr) :=
  if b.wpos > b.limit then .panic
  else
    let available := min (b.limit - b.wpos) p.length
    if available = 0 then .ret (b, 0, some .eof)
    else .ret ({ b with mem := copyAt b.mem b.wpos (p.take available),
                        wpos := b.wpos + available }, available, none)

/-- internal/wrapped_buffer.go:65-79 `Read` into a slice of length `n`. -/
def read (b : WBuf) (n : Nat) : P (WBuf × Bytes × Option GoErr) :=
  if b.rpos > b.limit then .panic
  else
    let available := min (b.limit - b.rpos) n
    if available = 0 then .ret (b, [], some .eof)
    else .ret ({ b with rpos := b.rpos + available }, slice b.mem b.rpos available, none)

/-- `io.ReadFull(b, buf)` for a buffer of `n` bytes (Go standard library `io.ReadAtLeast`), as used by
`struc.Unpack`: repeat `Read` until `n` bytes arrived; EOF after some bytes becomes
`io.ErrUnexpectedEOF`; `n = 0` reads nothing. `got` is what has been read so far.
The loop runs at most `n+1` times because every successful `Read` delivers at least one byte. -/
def readFullLoop : Nat → WBuf → Nat → Bytes → P (WBuf × Bytes × Option GoErr)
  | 0, b, _, got => .ret (b, got, none)
  | fuel + 1, b, n, got =>
    if got.length ≥ n then .ret (b, got, none)
    else do
      let (b', d, e) ← b.read (n - got.length)
      match e with
      | none => readFullLoop fuel b' n (got ++ d)
      | some .eof =>
        if got.length > 0 then .ret (b', got ++ d, some .unexpectedEof)
        else .ret (b', got ++ d, some .eof)
      | some e' => .ret (b', got ++ d, some e')

/-- `io.ReadFull` (see `readFullLoop`). -/
def readFull (b : WBuf) (n : Nat) : P (WBuf × Bytes × Option GoErr) := readFullLoop (n + 1) b n []
end WBuf

end Dparm
