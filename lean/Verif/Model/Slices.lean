/-
The operations on slices of which `Delete`, `InsertAfter` and `InsertBefore` of the cursor consist, on Go's arrays.
-/
import Verif.Model.Apply

namespace Verif

/-- A slice: part of an array, from `off` on; the length, and the capacity, up to which it may grow in place. -/
structure Slice where
  arr : Nat
  off : Nat
  len : Nat
  cap : Nat
  deriving DecidableEq, Repr

/-- The arrays in memory (nil is `none`), the slice in the field, and the address that is allocated next. -/
structure Arrays where
  mem : Nat → List (Option Nat)
  field : Slice
  next : Nat

/-- What one sees of the memory through a slice. -/
def Arrays.see (m : Arrays) (s : Slice) : List (Option Nat) := ((m.mem s.arr).drop s.off).take s.len

/-- The slice lies in its array, and the next address is free. -/
structure Arrays.Sound (m : Arrays) : Prop where
  len : m.field.len ≤ m.field.cap
  cap : m.field.off + m.field.cap ≤ (m.mem m.field.arr).length
  fresh : m.field.arr < m.next

/-- Store an array. -/
def Arrays.put (m : Arrays) (a : Nat) (l : List (Option Nat)) : Arrays :=
  { m with mem := fun b => if b = a then l else m.mem b }

/-- How a sequence of operations ends: with a panic, what was done before remains. -/
inductive SOut where
  | ok (m : Arrays)
  | panic (m : Arrays)

def SOut.bind : SOut → (Arrays → SOut) → SOut
  | .ok m, k => k m
  | .panic m, _ => .panic m

/-- `reflect.Value.Slice(i, j)` panics unless `i ≤ j ≤ cap`. -/
def Slice.sub (s : Slice) (i j : Nat) : Option Slice :=
  if i ≤ j ∧ j ≤ s.cap then some ⟨s.arr, s.off + i, j - i, s.cap - i⟩ else none

/-- `reflect.Copy` within an array, as with `memmove`: as many elements as both have. -/
def Arrays.copy (m : Arrays) (dst src : Slice) : Arrays :=
  let a := m.mem dst.arr
  let n := min dst.len src.len
  m.put dst.arr (a.take dst.off ++ ((m.mem src.arr).drop src.off).take n ++ a.drop (dst.off + n))

/-- `v.Index(i).Set(x)`: panics if there is no such element, or if the value does not have the type of the elements. -/
def Arrays.setAt (m : Arrays) (i : Nat) (x : Option Nat) (fits : Bool) : SOut :=
  if i < m.field.len ∧ fits = true then .ok (m.put m.field.arr ((m.mem m.field.arr).set (m.field.off + i) x)) else .panic m

/-- `v.Set(reflect.Append(v, reflect.Zero(v.Type().Elem())))`: in place if there is room, otherwise in a new array, with
room for `extra` more elements (how many depends on the runtime). -/
def Arrays.appendNil (extra : Nat) (m : Arrays) : Arrays :=
  let s := m.field
  if s.len < s.cap then
    { m.put s.arr ((m.mem s.arr).set (s.off + s.len) none) with field := { s with len := s.len + 1 } }
  else
    { m.put m.next (m.see s ++ none :: List.replicate extra none) with
      field := ⟨m.next, 0, s.len + 1, s.len + 1 + extra⟩, next := m.next + 1 }

/-- rewrite.go:67-72, the body of `Cursor.Delete`, for an index that is not negative. -/
def Arrays.delete (i : Nat) (m : Arrays) : SOut :=
  let l := m.field.len
  match m.field.sub i l, m.field.sub (i + 1) l with
  | some dst, some src =>
    ((m.copy dst src).setAt (l - 1) none true).bind fun m => .ok { m with field := { m.field with len := l - 1 } }
  | _, _ => .panic m

/-- rewrite.go:81-85, the body of `Cursor.InsertAfter`, for an index that is not negative. -/
def Arrays.insertAfter (extra i n : Nat) (fits : Bool) (m : Arrays) : SOut :=
  let m := m.appendNil extra
  let l := m.field.len
  match m.field.sub (i + 2) l, m.field.sub (i + 1) l with
  | some dst, some src => (m.copy dst src).setAt (i + 1) (some n) fits
  | _, _ => .panic m

/-- rewrite.go:94-98, the body of `Cursor.InsertBefore`, for an index that is not negative. -/
def Arrays.insertBefore (extra i n : Nat) (fits : Bool) (m : Arrays) : SOut :=
  let m := m.appendNil extra
  let l := m.field.len
  match m.field.sub (i + 1) l, m.field.sub i l with
  | some dst, some src => (m.copy dst src).setAt i (some n) fits
  | _, _ => .panic m

/-- Where the operations end. -/
def SOut.arrays : SOut → Arrays
  | .ok m | .panic m => m

/-- The cells of an array that existed before, outside of the part of it that belongs to the slice, are as they were. -/
def Arrays.Kept (m m' : Arrays) : Prop :=
  ∀ b k : Nat, b < m.next → (b = m.field.arr → k < m.field.off ∨ m.field.off + m.field.cap ≤ k) →
    (m'.mem b)[k]? = (m.mem b)[k]?

end Verif
