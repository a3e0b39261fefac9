/-!
# Basic data: bytes, outcomes, errors, the reader monad

Everything the readers and writers are built from.  Streams are lists of bytes
with a position; see DESIGN.md for what is idealised.
-/

namespace Gvas

/-- A buffer of bytes (`Vec<u8>` / the remaining input of a `Cursor`). -/
abbrev Bytes := List UInt8

/-- `n` little-endian bytes of `x` (byteorder's `write_uN::<LittleEndian>`,
used throughout `src/`, e.g. `src/cursor_ext.rs` 152-164).  Bits above
`8 * n` are dropped. -/
def leBytes : Nat → Nat → Bytes
  | 0, _ => []
  | n + 1, x => UInt8.ofNat x :: leBytes n (x / 256)

/-- The number denoted by little-endian bytes (byteorder's
`read_uN::<LittleEndian>`, e.g. `src/cursor_ext.rs` 59, 67, 121). -/
def leNat : Bytes → Nat
  | [] => 0
  | b :: bs => b.toNat + 256 * leNat bs

/-- An `f32`, by its bit pattern (`src/properties/struct_types.rs`, every use
of `f32`); arithmetic on floats never happens in the crate. -/
structure F32 where
  bits : UInt32
deriving DecidableEq, Repr, Inhabited

/-- An `f64`, by its bit pattern. -/
structure F64 where
  bits : UInt64
deriving DecidableEq, Repr, Inhabited

/-- A GUID: sixteen bytes (`src/types.rs` 8-10). -/
structure Guid where
  bytes : Bytes
  len : bytes.length = 16
deriving DecidableEq

/-- `crate::error::Error` (`src/error.rs` 8-50, 87-96, 117-129).  The payloads
the crate exposes are kept; `eof` is the `io::Error` of kind
`UnexpectedEof`, `io` any other I/O error (corrupt zlib stream). The inner
payload of the UTF errors is not modelled. -/
inductive Err where
  | invalidHeader (msg : String)
  | invalidValueSize (expected actual pos : Nat)
  | invalidString (len : Int32) (pos : Nat)
  | invalidStringTerminator (t : UInt16) (pos : Nat)
  | invalidBoolean (v : UInt32) (pos : Nat)
  | missingHint (struct path : String) (pos : Nat)
  | missingArgument (name : String) (pos : Nat)
  | invalidProperty (reason : String) (pos : Nat)
  | invalidEnumValue (name : String) (v : Int8) (pos : Nat)
  | invalidArrayIndex (v : UInt32) (pos : Nat)
  | invalidTerminator (v : UInt8) (pos : Nat)
  | fromUtf16 (pos : Nat)
  | fromUtf8 (pos : Nat)
  | serializeInvalidValue (msg : String)
  | eof
  | io
deriving DecidableEq, Repr

/-- The ways code can fail to return a value: an `Err(_)`, a panic, or - an
artefact of the model only - exhaustion of the recursion fuel. -/
inductive Fail where
  | err (e : Err)
  | panic (msg : String)
  | fuel
deriving DecidableEq, Repr

/-- Outcome of running code: a value or a failure. -/
inductive Res (α : Type) where
  | ok (a : α)
  | bad (f : Fail)
deriving DecidableEq, Repr

namespace Res

/-- Sequencing of outcomes: the `?` operator. -/
@[inline] protected def bind {α β : Type} (x : Res α) (f : α → Res β) : Res β :=
  match x with
  | .ok a => f a
  | .bad e => .bad e

instance : Monad Res where
  pure := .ok
  bind := Res.bind

/-- `Err(e)`. -/
abbrev err {α : Type} (e : Err) : Res α := .bad (.err e)

/-- A panic. -/
abbrev panic {α : Type} (m : String) : Res α := .bad (.panic m)

end Res

/-- State of a reader: the bytes not yet consumed, the stream position, and
`PropertyOptions::properties_stack` (`src/properties/mod.rs` 437-445), bottom
of the stack first. -/
structure RS where
  rest : Bytes
  pos : Nat
  stack : List String
deriving DecidableEq, Repr

/-- A reader: the state survives errors and panics, as it does for the caller
of a Rust function taking `&mut R`. -/
def R (α : Type) := RS → Res α × RS

namespace R

/-- `Ok(a)`. -/
@[inline] protected def pure {α : Type} (a : α) : R α := fun s => (.ok a, s)

/-- Sequencing with `?`. -/
@[inline] protected def bind {α β : Type} (m : R α) (f : α → R β) : R β := fun s =>
  match m s with
  | (.ok a, s') => f a s'
  | (.bad e, s') => (.bad e, s')

instance : Monad R where
  pure := R.pure
  bind := R.bind

/-- `Err(e)?`. -/
def fail {α : Type} (e : Err) : R α := fun s => (.bad (.err e), s)

/-- `panic!` / failed `assert!` / `unimplemented!`. -/
def panic {α : Type} (msg : String) : R α := fun s => (.bad (.panic msg), s)

/-- Recursion fuel exhausted (model artefact). -/
def outOfFuel {α : Type} : R α := fun s => (.bad .fuel, s)

/-- `Seek::stream_position`. -/
def position : R Nat := fun s => (.ok s.pos, s)

/-- The current `properties_stack`. -/
def getStack : R (List String) := fun s => (.ok s.stack, s)

/-- `if !cond { Err(...)? }` / `assert!(cond)`: go on when `c` holds, otherwise
run `orElse`, which fails. -/
def ensure (c : Prop) [Decidable c] (orElse : R Unit) : R Unit :=
  if c then R.pure () else orElse

/-- `Read::read_exact` of `n` bytes; on a short input the cursor ends up at the
end and `UnexpectedEof` is returned. -/
def take (n : Nat) : R Bytes := fun s =>
  if n ≤ s.rest.length then
    (.ok (s.rest.take n), { s with rest := s.rest.drop n, pos := s.pos + n })
  else
    (.bad (.err .eof), { s with rest := [], pos := s.pos + s.rest.length })

/-- `ScopedStackEntry::new` ... drop (`src/scoped_stack_entry.rs` 8-22): push a
path component, run, pop it again whatever the outcome (drop also runs when a
panic unwinds). -/
def withEntry {α : Type} (name : String) (m : R α) : R α := fun s =>
  match m { s with stack := s.stack ++ [name] } with
  | (r, s') => (r, { s' with stack := s'.stack.dropLast })

/-- `for _ in 0..n { v.push(m()?) }`. -/
def replicate {α : Type} (m : R α) : Nat → R (List α)
  | 0 => R.pure []
  | n + 1 => R.bind m fun a => R.bind (replicate m n) fun as => R.pure (a :: as)

end R

/-- Build profile and file level context: `debug` = debug_assertions and
overflow checks on; the hint table (`src/properties/mod.rs` 439-440) as a
lookup function; the custom versions of the header (443-444). -/
structure Env where
  debug : Bool
  hints : String → Option String
  cv : List (Guid × UInt32)

/-- What a writer produced: the bytes, and the `usize` it returned. -/
structure Out where
  bytes : Bytes
  n : Nat
deriving DecidableEq, Repr

namespace Out

/-- Nothing written. -/
def nil : Out := ⟨[], 0⟩

/-- Two writes in sequence. -/
def app (a b : Out) : Out := ⟨a.bytes ++ b.bytes, a.n + b.n⟩

instance : Append Out := ⟨app⟩

end Out

/-- `Vec<String>::join(".")` (`src/properties/mod.rs` 590). -/
def joinDots : List String → String
  | [] => ""
  | [a] => a
  | a :: b :: l => a ++ "." ++ joinDots (b :: l)

end Gvas
