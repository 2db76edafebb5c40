import Verif.Model.WinVolume
/-!
# Texts of Windows: `windows.UTF16ToString` and `windows.UTF16PtrFromString` (golang.org/x/sys/windows, Go's syscall, unicode/utf8, unicode/utf16)

The library calls them at plat_win/utils.go:31, plat_win/drive_factory.go:166 and plat_win/volume.go:120,129,140. A 16-bit surrogate without
its counterpart is replaced by U+FFFD by Go versions before 1.21 and kept in a form of three bytes (WTF-8) by later ones; `wtf` says which.
-/
namespace Dparm

/-- `utf8.AppendRune(nil, r)`; for surrogates the three bytes of WTF-8 (Go's syscall/wtf8_windows.go `decodeWTF16`). -/
def appendRune (r : Nat) : Bytes :=
  let t := fun (n : Nat) => BitVec.ofNat 8 (0x80 ||| (n &&& 0x3f))
  if r ≤ 0x7f then [BitVec.ofNat 8 r]
  else if r ≤ 0x7ff then [BitVec.ofNat 8 (0xc0 ||| (r >>> 6)), t r]
  else if r ≤ 0xffff then [BitVec.ofNat 8 (0xe0 ||| (r >>> 12)), t (r >>> 6), t r]
  else [BitVec.ofNat 8 (0xf0 ||| (r >>> 18)), t (r >>> 12), t (r >>> 6), t r]

/-- `windows.UTF16ToString`: up to the first NUL; surrogate pairs are joined. -/
def utf16Decode (wtf : Bool) : Wide → Bytes
  | [] => []
  | a :: rest =>
    if a = 0#16 then []
    else if a.toNat < 0xd800 ∨ 0xe000 ≤ a.toNat then appendRune a.toNat ++ utf16Decode wtf rest
    else match rest with
      | [] => appendRune (if wtf then a.toNat else 0xfffd)
      | b :: rest' =>
        if a.toNat < 0xdc00 ∧ 0xdc00 ≤ b.toNat ∧ b.toNat < 0xe000 then
          appendRune (((a.toNat - 0xd800) <<< 10 ||| (b.toNat - 0xdc00)) + 0x10000) ++ utf16Decode wtf rest'
        else appendRune (if wtf then a.toNat else 0xfffd) ++ utf16Decode wtf (b :: rest')
termination_by w => w.length

/-- `utf8.DecodeRuneInString`: the rune and its size, U+FFFD and 1 for bytes that are no UTF-8. -/
def decodeRune (s : Bytes) : Nat × Nat :=
  let b := fun i => (s.getD i 0#8).toNat
  let cont := fun i lo hi => decide (i < s.length) && decide (lo ≤ b i) && decide (b i ≤ hi)
  if s = [] then (0xfffd, 0)
  else if b 0 < 0x80 then (b 0, 1)
  else if 0xc2 ≤ b 0 ∧ b 0 ≤ 0xdf then
    if cont 1 0x80 0xbf then ((b 0 &&& 0x1f) <<< 6 ||| (b 1 &&& 0x3f), 2) else (0xfffd, 1)
  else if 0xe0 ≤ b 0 ∧ b 0 ≤ 0xef then
    if cont 1 (if b 0 = 0xe0 then 0xa0 else 0x80) (if b 0 = 0xed then 0x9f else 0xbf) && cont 2 0x80 0xbf then
      ((b 0 &&& 0xf) <<< 12 ||| (b 1 &&& 0x3f) <<< 6 ||| (b 2 &&& 0x3f), 3)
    else (0xfffd, 1)
  else if 0xf0 ≤ b 0 ∧ b 0 ≤ 0xf4 then
    if cont 1 (if b 0 = 0xf0 then 0x90 else 0x80) (if b 0 = 0xf4 then 0x8f else 0xbf) && cont 2 0x80 0xbf && cont 3 0x80 0xbf then
      ((b 0 &&& 0x7) <<< 18 ||| (b 1 &&& 0x3f) <<< 12 ||| (b 2 &&& 0x3f) <<< 6 ||| (b 3 &&& 0x3f), 4)
    else (0xfffd, 1)
  else (0xfffd, 1)

/-- `utf16.AppendRune(nil, r)` -/
def appendRune16 (r : Nat) : Wide :=
  if r < 0xd800 ∨ (0xe000 ≤ r ∧ r < 0x10000) then [BitVec.ofNat 16 r]
  else if 0x10000 ≤ r ∧ r ≤ 0x10ffff then
    [BitVec.ofNat 16 (0xd800 + ((r - 0x10000) >>> 10 &&& 0x3ff)), BitVec.ofNat 16 (0xdc00 + ((r - 0x10000) &&& 0x3ff))]
  else [0xfffd#16]

/-- Go's syscall `encodeWTF16`, or `utf16.Encode([]rune(s))`. -/
def utf16Encode (wtf : Bool) (s : Bytes) : Wide :=
  match h : s with
  | [] => []
  | x :: xs =>
    let b := fun i => ((x :: xs).getD i 0#8).toNat
    if wtf && decide ((decodeRune (x :: xs)).1 = 0xfffd ∧ 3 ≤ (x :: xs).length ∧ b 0 = 0xed ∧ 0xa0 ≤ b 1 ∧ b 1 ≤ 0xbf ∧
        0x80 ≤ b 2 ∧ b 2 ≤ 0xbf) then
      BitVec.ofNat 16 ((b 0 &&& 0xf) <<< 12 ||| (b 1 &&& 0x3f) <<< 6 ||| (b 2 &&& 0x3f)) :: utf16Encode wtf ((x :: xs).drop 3)
    else appendRune16 (decodeRune (x :: xs)).1 ++ utf16Encode wtf ((x :: xs).drop (max 1 (decodeRune (x :: xs)).2))
termination_by s.length
decreasing_by
  all_goals
    simp only [List.length_drop, List.length_cons]
    omega

/-- `windows.UTF16PtrFromString` (plat_win/utils.go:31): the characters Windows is given, up to the NUL that ends them; a text with a NUL is
refused. -/
def utf16FromString (wtf : Bool) (s : Bytes) : Option Wide := if s.contains 0#8 then none else some (utf16Encode wtf s)

end Dparm
