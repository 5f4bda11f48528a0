import Verif.Model.Tokenizer
/-
How a tokenizer gets its runes: `scan.Init(src)` (sqltoken/tokenizer.go:129-138) and the `Peek` and `Next` calls of
the tokenizer run through `text/scanner`, which decodes UTF-8 from an `io.Reader`.  This is the part of Go's standard
library (packages text/scanner and unicode/utf8) that the tokenizer uses.  It is not in /repo; the line comments name
the functions.  The buffer of 1024 bytes is unbounded here, and what the scanner prints on stderr is left out.
-/
namespace Verif

/-- A byte sequence. -/
abbrev Bytes := List UInt8

/-- unicode/utf8, the table `first` with `acceptRanges`: the length of the sequence that a byte begins (1 for ASCII) and
the range of the second byte; `none` for a byte that begins no sequence. -/
def utf8First (b : Nat) : Option (Nat × Nat × Nat) :=
  if b < 0x80 then some (1, 0, 0)
  else if b < 0xC2 then none
  else if b < 0xE0 then some (2, 0x80, 0xBF)
  else if b = 0xE0 then some (3, 0xA0, 0xBF)
  else if b = 0xED then some (3, 0x80, 0x9F)
  else if b < 0xF0 then some (3, 0x80, 0xBF)
  else if b = 0xF0 then some (4, 0x90, 0xBF)
  else if b < 0xF4 then some (4, 0x80, 0xBF)
  else if b = 0xF4 then some (4, 0x80, 0x8F)
  else none

/-- unicode/utf8 `RuneError`. -/
def runeError : Char := '\uFFFD'

/-- A continuation byte (`locb` to `hicb`). -/
def isCont (b : UInt8) : Bool := 0x80 ≤ b.toNat && b.toNat ≤ 0xBF

/-- unicode/utf8 `DecodeRune`: the rune at the beginning of the bytes and its width. -/
def decodeRune (p : Bytes) : Char × Nat :=
  match p with
  | [] => (runeError, 0)
  | p0 :: p =>
    match utf8First p0.toNat with
    | none => (runeError, 1)
    | some (size, lo, hi) =>
      if size = 1 then (Char.ofNat p0.toNat, 1)
      else match p with
        | [] => (runeError, 1)
        | b1 :: p =>
          if p.length + 2 < size then (runeError, 1)
          else if b1.toNat < lo ∨ hi < b1.toNat then (runeError, 1)
          else if size ≤ 2 then (Char.ofNat (p0.toNat % 32 * 64 + b1.toNat % 64), 2)
          else match p with
            | [] => (runeError, 1)
            | b2 :: p =>
              if !isCont b2 then (runeError, 1)
              else if size ≤ 3 then (Char.ofNat (p0.toNat % 16 * 4096 + b1.toNat % 64 * 64 + b2.toNat % 64), 3)
              else match p with
                | [] => (runeError, 1)
                | b3 :: _ =>
                  if !isCont b3 then (runeError, 1)
                  else (Char.ofNat (p0.toNat % 8 * 262144 + b1.toNat % 64 * 4096 + b2.toNat % 64 * 64 + b3.toNat % 64), 4)

/-- unicode/utf8 `FullRune`: no further byte is needed to decode the first rune. -/
def fullRune (p : Bytes) : Bool :=
  match p with
  | [] => false
  | p0 :: p =>
    match utf8First p0.toNat with
    | none => true
    | some (size, lo, hi) =>
      if size ≤ p.length + 1 then true
      else match p with
        | [] => false
        | b1 :: p =>
          if b1.toNat < lo ∨ hi < b1.toNat then true
          else match p with
            | [] => false
            | b2 :: _ => !isCont b2

/-- What one call of `Read` returns: some bytes (perhaps none), and whether there was an error (`io.EOF` or another; the
scanner prints a message for another error and makes no other difference). -/
structure ReadRes where
  data : Bytes
  err : Bool

/-- The reader: the results of its calls of `Read`; after them every call returns no bytes and `io.EOF`. -/
abbrev Reader := List ReadRes

/-- text/scanner `Scanner`, the part used here: the bytes read and not yet decoded, the reader, and `ch`, the
character after the one returned last: `none` is -2 (nothing read yet), `some none` is EOF. -/
structure Scanner where
  buf : Bytes
  reads : Reader
  ch : Option (Option Char)

/-- text/scanner `next`: the loop that reads more bytes until the buffer begins with a full rune, or `Read` returns an
error (`io.EOF` or another). -/
def fillBuf (buf : Bytes) (reads : Reader) : Bytes × Reader :=
  if fullRune buf then (buf, reads)
  else match reads with
    | [] => (buf, [])
    | ⟨bs, err⟩ :: rs => if err then (buf ++ bs, rs) else fillBuf (buf ++ bs) rs

/-- text/scanner `next`: `none` is EOF. -/
def scanNext (buf : Bytes) (reads : Reader) : Option Char × Bytes × Reader :=
  match fillBuf buf reads with
  | ([], rs) => (none, [], rs)
  | (b :: bs, rs) => (some (decodeRune (b :: bs)).1, (b :: bs).drop (decodeRune (b :: bs)).2, rs)

/-- text/scanner `Init`. -/
def Scanner.init (src : Reader) : Scanner := ⟨[], src, none⟩

/-- text/scanner `Peek`: the first call skips a byte order mark. -/
def Scanner.peek (s : Scanner) : Option Char × Scanner :=
  match s.ch with
  | some ch => (ch, s)
  | none =>
    match scanNext s.buf s.reads with
    | (some '\uFEFF', b, r) =>
      match scanNext b r with
      | (ch, b, r) => (ch, ⟨b, r, some ch⟩)
    | (ch, b, r) => (ch, ⟨b, r, some ch⟩)

/-- text/scanner `Next`. -/
def Scanner.next (s : Scanner) : Option Char × Scanner :=
  match s.peek with
  | (none, s) => (none, s)
  | (some ch, s) =>
    match scanNext s.buf s.reads with
    | (ch', b, r) => (some ch, ⟨b, r, some ch'⟩)

end Verif
