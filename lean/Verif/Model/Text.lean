import Verif.Model.Base
/-!
# Go string functions on bytes, and the text helpers of plat_linux/utils.go and plat_win/utils.go

Go's `strings.Contains`, `Cut`, `LastIndex`, `TrimSuffix`, `TrimSpace` by their documentation; a string is its bytes.
-/
namespace Dparm

/-- ASCII text as bytes. -/
def ascii (s : String) : Bytes := s.toList.map (fun c => BitVec.ofNat 8 c.toNat)

/-- `strings.HasPrefix(s, p)` -/
def hasPrefix (s p : Bytes) : Bool := p.isPrefixOf s

/-- `strings.Contains(s, sub)` -/
def contains : Bytes → Bytes → Bool
  | [], sub => sub.isPrefixOf []
  | x :: xs, sub => sub.isPrefixOf (x :: xs) || contains xs sub

/-- `strings.Cut(s, sep)` for a separator of one byte: text before the first separator, text after it, whether found. -/
def cut : Bytes → Byte → Bytes × Bytes × Bool
  | [], _ => ([], [], false)
  | x :: xs, c =>
    if x = c then ([], xs, true)
    else ((x :: (cut xs c).1), (cut xs c).2.1, (cut xs c).2.2)

/-- `strings.LastIndex(s, sep)` for a separator of one byte; -1 if there is none. -/
def lastIndex (s : Bytes) (c : Byte) : Int :=
  match s.reverse.findIdx? (· == c) with
  | none => -1
  | some i => (s.length : Int) - 1 - i

/-- `strings.TrimSuffix(s, suffix)` for a suffix of one byte. -/
def trimSuffix (s : Bytes) (c : Byte) : Bytes := if s.getLast? = some c then s.dropLast else s

/-- The UTF-8 encodings of the white space `strings.TrimSpace` removes (`unicode.IsSpace`): tab, line feed, vertical tab, form feed,
carriage return, space, U+0085, U+00A0, U+1680, U+2000 to U+200A, U+2028, U+2029, U+202F, U+205F, U+3000. -/
def goSpace : List Bytes :=
  [[0x09#8], [0x0a#8], [0x0b#8], [0x0c#8], [0x0d#8], [0x20#8], [0xc2#8, 0x85#8], [0xc2#8, 0xa0#8], [0xe1#8, 0x9a#8, 0x80#8],
   [0xe2#8, 0x80#8, 0x80#8], [0xe2#8, 0x80#8, 0x81#8], [0xe2#8, 0x80#8, 0x82#8], [0xe2#8, 0x80#8, 0x83#8], [0xe2#8, 0x80#8, 0x84#8],
   [0xe2#8, 0x80#8, 0x85#8], [0xe2#8, 0x80#8, 0x86#8], [0xe2#8, 0x80#8, 0x87#8], [0xe2#8, 0x80#8, 0x88#8], [0xe2#8, 0x80#8, 0x89#8],
   [0xe2#8, 0x80#8, 0x8a#8], [0xe2#8, 0x80#8, 0xa8#8], [0xe2#8, 0x80#8, 0xa9#8], [0xe2#8, 0x80#8, 0xaf#8], [0xe2#8, 0x81#8, 0x9f#8],
   [0xe3#8, 0x80#8, 0x80#8]]

/-- Removes `words` from the front as long as there is one. The first argument bounds the rounds; the length of the text is enough. -/
def stripFront (words : List Bytes) : Nat → Bytes → Bytes
  | 0, s => s
  | n + 1, s =>
    match words.find? (fun w => w.isPrefixOf s) with
    | none => s
    | some w => stripFront words n (s.drop w.length)

/-- `strings.TrimSpace`: runes at the front, then at the end (the last rune of a text is the one its last bytes encode). -/
def trimSpace (s : Bytes) : Bytes :=
  let t := stripFront goSpace s.length s
  (stripFront (goSpace.map List.reverse) t.length t.reverse).reverse

/-- plat_linux/utils.go:101-106, plat_win/utils.go:204-209: the loop over `buf[offset:]`. -/
def untilNul : Bytes → Bytes → Bytes
  | [], _ => []
  | x :: xs, acc => if x = 0#8 then acc else untilNul xs (acc ++ [x])

/-- plat_linux/utils.go:96-107 and plat_win/utils.go:199-210 `readNullTerminatedAscii`; `buf[offset:]` panics beyond the
length. -/
def readNullTerminatedAscii (buf : Bytes) (offset : Int) : P Bytes :=
  if offset ≤ 0 then .ret []
  else if offset > buf.length then .panic
  else .ret (untilNul (buf.drop offset.toNat) [])

/-- plat_linux/utils.go:132-139 and plat_win/utils.go:253-260 `wcslen` -/
def wcslen (buf : List (BitVec 16)) : Nat := go buf 0
where
  /-- the loop from index `i` on -/
  go : List (BitVec 16) → Nat → Nat
    | [], i => i
    | x :: xs, i => if x = 0#16 then i else go xs (i + 1)

end Dparm
