import Verif.Model.Base
/-
Model of sqlast/writer.go: writing a node to an arbitrary `io.Writer`.

A `WriteTo` method is a sequence of calls of `sqlWriter` methods, a single write, or (two literals of
value.go) a hand-written sequence of three writes.  `Wt` is the syntax of such methods, `Wt.run` executes one
on a writer.  Byte counts are integers (`int64` overflow of the count is not modelled).
-/
namespace Verif

/-- The UTF-8 bytes of a text. -/
def utf8 (s : Str) : List UInt8 := s.flatMap String.utf8EncodeChar

/-- An `io.Writer` with internal state `σ` and errors `ε`.  A call gets the text to write and returns the
reported count, the error (nil is `none`) and the next state.  `writeString` is the `WriteString` method if the
writer has one.  Writers that panic or never return are not modelled. -/
structure IOWriter (σ ε : Type) where
  write : σ → Str → Int × Option ε × σ
  writeString : Option (σ → Str → Int × Option ε × σ)

/-- `io.WriteString` of the Go standard library: uses `WriteString` if there is one. -/
def IOWriter.string (w : IOWriter σ ε) (s : σ) (text : Str) : Int × Option ε × σ :=
  match w.writeString with
  | some ws => ws s text
  | none => w.write s text

mutual
/-- The body of a `WriteTo` method. -/
inductive Wt where
  /-- `newSQLWriter(w)` followed by method calls and `End()` -/
  | sw (steps : List Step)
  /-- `writeSingleBytes`, writer.go:169-172, or a plain `w.Write` -/
  | single (b : Str)
  /-- `writeSingleString`, writer.go:174-177, or a plain `io.WriteString` -/
  | singleString (b : Str)
  /-- value.go:110-121 and 150-161: three writes, stopping at the first error -/
  | quoted (pre s post : Str)
  /-- `return 0, nil` -/
  | nothing
/-- A call of an `sqlWriter` method. -/
inductive Step where
  /-- `Bytes`, writer.go:26-36; also `Space`, `LParen`, `RParen`, `As`, `If`, `Negated`, and `Int`
  (writer.go:50-63, the same code for a formatted number) -/
  | bytes (b : Str)
  /-- `Node`, writer.go:65-75; also `if sw.Err() == nil { sw.Direct(x.WriteTo(w)) }` -/
  | node (x : Wt)
  /-- `sw.Direct(x.WriteTo(w))` without a test of `sw.Err()`, writer.go:161-167 -/
  | direct (x : Wt)
  /-- `Idents`, writer.go:98-118 -/
  | idents (ids : List Str) (sep : Str)
end

/-- writer.go:9-13, the fields of `sqlWriter`, with the state of the underlying writer. -/
structure SW (σ ε : Type) where
  n : Int
  err : Option ε
  s : σ

/-- writer.go:26-36, `Bytes`. -/
def SW.bytes (w : IOWriter σ ε) (b : Str) (r : SW σ ε) : SW σ ε :=
  if r.err.isSome then r
  else
    let c := w.write r.s b
    ⟨r.n + c.1, if c.2.1.isSome then c.2.1 else r.err, c.2.2⟩

/-- writer.go:161-167, `Direct`, with the results of the call that is its argument. -/
def SW.direct (c : Int × Option ε × σ) (r : SW σ ε) : SW σ ε :=
  ⟨r.n + c.1, if c.2.1.isSome then c.2.1 else r.err, c.2.2⟩

/-- writer.go:104-112, the loop of `Idents` for a writer with a `WriteString` method. -/
def SW.identsString (w : IOWriter σ ε) (ws : σ → Str → Int × Option ε × σ) (sep : Str) :
    Nat → List Str → SW σ ε → SW σ ε
  | _, [], r => r
  | i, x :: xs, r =>
    let r := if i > 0 then r.bytes w sep else r
    let r := if r.err.isNone then r.direct (ws r.s x) else r
    SW.identsString w ws sep (i + 1) xs r

/-- writer.go:114-116 with 77-82 (`Join`): the loop of `Idents` for other writers. -/
def SW.identsPlain (w : IOWriter σ ε) (sep : Str) : Nat → List Str → SW σ ε → SW σ ε
  | _, [], r => r
  | i, x :: xs, r =>
    let r := if i > 0 then r.bytes w sep else r
    let r := if r.err.isSome then r else r.direct (w.string r.s x)
    SW.identsPlain w sep (i + 1) xs r

mutual
/-- Execute a `WriteTo` method: the returned count and error, and the writer afterwards. -/
def Wt.run (w : IOWriter σ ε) : Wt → σ → Int × Option ε × σ
  | .sw steps, s =>
    let r := Step.runs w steps ⟨0, none, s⟩
    (r.n, r.err, r.s)
  | .single b, s => w.write s b
  | .singleString b, s => w.string s b
  | .quoted pre b post, s =>
    let c0 := w.write s pre
    if c0.2.1.isSome then c0
    else
      let c1 := w.string c0.2.2 b
      if c1.2.1.isSome then (c0.1 + c1.1, c1.2.1, c1.2.2)
      else
        let c2 := w.write c1.2.2 post
        (c0.1 + c1.1 + c2.1, c2.2.1, c2.2.2)
  | .nothing, s => (0, none, s)
/-- Execute `sqlWriter` calls in order. -/
def Step.runs (w : IOWriter σ ε) : List Step → SW σ ε → SW σ ε
  | [], r => r
  | x :: xs, r => Step.runs w xs (Step.run w x r)
/-- Execute one `sqlWriter` call. -/
def Step.run (w : IOWriter σ ε) : Step → SW σ ε → SW σ ε
  | .bytes b, r => r.bytes w b
  | .node x, r => if r.err.isSome then r else r.direct (Wt.run w x r.s)
  | .direct x, r => r.direct (Wt.run w x r.s)
  | .idents ids sep, r =>
    if r.err.isSome then r
    else
      match w.writeString with
      | some ws => SW.identsString w ws sep 0 ids r
      | none => SW.identsPlain w sep 0 ids r
end

/-- `strings.Builder` as a writer: accepts everything. -/
def builder : IOWriter Str Empty where
  write s b := (byteLen b, none, s ++ b)
  writeString := some fun s b => (byteLen b, none, s ++ b)

/-- writer.go:179-183, `toSQLString`. -/
def Wt.builderString (x : Wt) : Str := (x.run builder []).2.2

/-- `Join`, `JoinComma`, `JoinNewLine` (writer.go:77-96) in a loop over a slice, and `Nodes`
(writer.go:120-128). -/
def Step.join (sep : Str) : List Wt → List Step
  | [] => []
  | x :: xs => .node x :: xs.flatMap fun y => [.bytes sep, .node y]

/-- `If`, writer.go:142-147. -/
def Step.if_ (c : Bool) (b : Str) : List Step := if c then [.bytes b] else []

/-- Decimal digits of a number. -/
def natStr (n : Nat) : Str :=
  if n < 10 then [Char.ofNat (48 + n)] else natStr (n / 10) ++ [Char.ofNat (48 + n % 10)]

/-- `strconv.FormatInt(i, 10)` / `AppendInt`. -/
def intStr (i : Int) : Str :=
  match i with
  | .ofNat n => natStr n
  | .negSucc n => '-' :: natStr (n + 1)

/-- The conversion `int(u)` of a `uint` on a 64-bit machine: two's complement. -/
def intOfUint (u : Nat) : Int :=
  if u % 2 ^ 64 < 2 ^ 63 then (u % 2 ^ 64 : Nat) else (u % 2 ^ 64 : Nat) - 2 ^ 64

/-- `Int(int(u))`, writer.go:50-63. -/
def Step.uint (u : Nat) : Step := .bytes (intStr (intOfUint u))

end Verif
