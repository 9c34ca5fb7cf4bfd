import Verif.Model.Process
/-!
# Standard output and standard error as devices that can fail

The parts of std between `print!`/`eprintln!` and the operating system: `std::io::LineWriter` over `BufWriter` for standard
output, no buffer for standard error, the panic of `print!` and `eprintln!` if a write fails, and the last flush at the end of
the process, whose error is ignored.

One step of a device is one call of std's own `write` on the raw stream.  An interrupted call (`EINTR`) is repeated by std and so is no step of its own; a closed
stream (`EBADF`) is taken by std for one that takes everything, so it is a device that never fails.
-/
namespace Ripcalc

/-- What `write(2)` does in a state of the device, behind every `print!`, `println!` and `eprintln!` of the code (`console.rs:75,81`,
`cmds/*.rs`, `main.rs:76-78`): `some n` if at most `n` bytes are taken, `none` for an error. -/
abbrev Device (σ : Type) := σ → List Byte → Option Nat × σ

/-- The result of writing a byte string with a loop (std, behind `console.rs:75,81`): what the device took, what it did not take, whether all went well. -/
structure Pushed (σ : Type) where
  done : List Byte
  rest : List Byte
  ok : Bool
  dev : σ

/-- `Write::write_all`, and the loop of `BufWriter::flush_buf` (std, behind `console.rs:75,81`): repeated until nothing is left; an error, and a write that takes
nothing, end it. -/
def pushAll (d : Device σ) (s : σ) (bs : List Byte) : Pushed σ :=
  if _h : bs = [] then ⟨[], [], true, s⟩
  else match d s bs with
    | (some (n + 1), s') =>
      let r := pushAll d s' (bs.drop (n + 1))
      ⟨bs.take (n + 1) ++ r.done, r.rest, r.ok, r.dev⟩
    | (_, s') => ⟨[], bs, false, s'⟩
termination_by bs.length
decreasing_by
  have := List.length_pos_iff.mpr _h
  rw [List.length_drop]; omega

/-- `LineWriter` (std, behind `console.rs:75,81` and every other `print!`, `println!`): what the device has taken so far, the buffer, the device. -/
structure LineWriter (σ : Type) where
  delivered : List Byte
  buffer : List Byte
  dev : σ

/-- The capacity of the buffer: `LineWriter::new` (std, behind `console.rs:75,81`). -/
def lineCapacity : Nat := 1024

/-- The operator `?` (std, behind `console.rs:75,81`): goes on only after success. -/
def andThen (r : Bool × α) (f : α → Bool × α) : Bool × α := if r.1 then f r.2 else r

/-- `BufWriter::flush_buf` (std, behind `console.rs:75,81` and `main.rs:77`): what the device does not take stays in the buffer. -/
def LineWriter.flushBuf (d : Device σ) (w : LineWriter σ) : Bool × LineWriter σ :=
  let p := pushAll d w.dev w.buffer
  (p.ok, ⟨w.delivered ++ p.done, p.rest, p.dev⟩)

/-- `self.inner.write_all(bs)`, past the buffer (std, behind `console.rs:75,81`). -/
def LineWriter.direct (d : Device σ) (w : LineWriter σ) (bs : List Byte) : Bool × LineWriter σ :=
  let p := pushAll d w.dev bs
  (p.ok, ⟨w.delivered ++ p.done, w.buffer, p.dev⟩)

/-- `BufWriter::write_all` with `write_all_cold` (std, behind `console.rs:75,81`). -/
def LineWriter.bufWriteAll (d : Device σ) (w : LineWriter σ) (bs : List Byte) : Bool × LineWriter σ :=
  if bs.length < lineCapacity - w.buffer.length then (true, { w with buffer := w.buffer ++ bs })
  else
    andThen (if bs.length > lineCapacity - w.buffer.length then w.flushBuf d else (true, w)) fun w =>
      if bs.length ≥ lineCapacity then w.direct d bs else (true, { w with buffer := w.buffer ++ bs })

/-- The part of a byte string up to its last line end (`memrchr`; std, behind `console.rs:75,81`). -/
def upToLine (bs : List Byte) : List Byte := (bs.reverse.dropWhile (· ≠ 10)).reverse

/-- The part after the last line end (std, behind `console.rs:75,81`). -/
def afterLine (bs : List Byte) : List Byte := (bs.reverse.takeWhile (· ≠ 10)).reverse

/-- `LineWriterShim::write_all` (std, behind `console.rs:75,81`). -/
def LineWriter.writeAll (d : Device σ) (w : LineWriter σ) (bs : List Byte) : Bool × LineWriter σ :=
  if upToLine bs = [] then
    andThen (if w.buffer.getLast? = some 10 then w.flushBuf d else (true, w)) fun w => w.bufWriteAll d bs
  else
    andThen
      (if w.buffer = [] then w.direct d (upToLine bs)
       else andThen (w.bufWriteAll d (upToLine bs)) fun w => w.flushBuf d)
      fun w => w.bufWriteAll d (afterLine bs)

/-- `Write::write_fmt` (std, behind `console.rs:75,81`): the pieces of a formatted text, one after the other. -/
def LineWriter.writeFmt (d : Device σ) (w : LineWriter σ) : List (List Byte) → Bool × LineWriter σ
  | [] => (true, w)
  | p :: ps => andThen (w.writeAll d p) fun w => w.writeFmt d ps

/-- Standard error, which has no buffer (std, behind `eprintln!`, for example `cmds/show_net.rs:28`): what the device has taken so far, the device. -/
structure RawWriter (σ : Type) where
  delivered : List Byte
  dev : σ

/-- `Write::write_fmt` without a buffer (std, behind `eprintln!`, for example `cmds/show_net.rs:28`). -/
def RawWriter.writeFmt (d : Device σ) (w : RawWriter σ) : List (List Byte) → Bool × RawWriter σ
  | [] => (true, w)
  | p :: ps =>
    let r := pushAll d w.dev p
    andThen (r.ok, ⟨w.delivered ++ r.done, r.dev⟩) fun w => w.writeFmt d ps

/-- The bytes of an event: one `print!`, `println!` or `eprintln!` (`console.rs:75,81`, `cmds/*.rs`). -/
def eventBytes (u : CharTable) : OutEv → List Byte
  | .out s => utf8Encode s
  | .styled c s => utf8Encode (styledText c s)
  | .err m => utf8Encode (m.text u)

/-- How the formatting machinery cuts the text of an event into pieces (std, behind `console.rs:75,81`).  This is not modelled further: any way of cutting. -/
structure Chunking (u : CharTable) where
  pieces : OutEv → List (List Byte)
  flatten : ∀ e, (pieces e).flatten = eventBytes u e

/-- The two streams (std, behind `main.rs:76-78`). -/
structure Streams (σ τ : Type) where
  out : LineWriter σ
  err : RawWriter τ

/-- Writes events until one fails: the `print!`, `println!` and `eprintln!` of a run of `do_main` (`main.rs:47-74`). -/
def perform (d : Device σ) (e : Device τ) (f : Chunking u) (st : Streams σ τ) : List OutEv → Bool × Streams σ τ
  | [] => (true, st)
  | .err m :: evs =>
    let r := st.err.writeFmt e (f.pieces (.err m))
    andThen (r.1, { st with err := r.2 }) fun st => perform d e f st evs
  | ev :: evs =>
    let r := st.out.writeFmt d (f.pieces ev)
    andThen (r.1, { st with out := r.2 }) fun st => perform d e f st evs

/-- `main` (`main.rs:76-78`): the process with devices for its standard streams, which starts with them in the states `s` and `t`: `stdout` and `stderr` are what
the devices have taken.  A write that fails is a panic of the main thread.  At the end of the process, also after a panic, the
buffer of standard output is flushed and an error is ignored (`std::rt::cleanup`). -/
def deliver (rt : Runtime) (u : CharTable) (f : Chunking u) (d : Device σ) (e : Device τ) (s : σ) (t : τ) (argv : List (List Byte)) : Process :=
  match envArgs argv with
  | none => ⟨[], [], .status 101⟩
  | some args =>
    let r := doMain rt args
    let p := perform d e f ⟨⟨[], [], s⟩, ⟨[], t⟩⟩ r.out
    let ended (code : Nat) : Process := ⟨(p.2.out.flushBuf d).2.delivered, p.2.err.delivered, .status code⟩
    if p.1 then
      match r.res with
      | .ok code => ended code
      | .panic _ => ended 101
      | .diverge => ⟨p.2.out.delivered, p.2.err.delivered, .never⟩
    else ended 101

/-! ## One device for both streams -/

/-- Writes events as `perform` does (`main.rs:47-74`), where both streams lead to one device, such as a terminal: `delivered` is what the device has taken
from either of them. -/
def performShared (d : Device σ) (f : Chunking u) (w : LineWriter σ) : List OutEv → Bool × LineWriter σ
  | [] => (true, w)
  | .err m :: evs =>
    let r := (RawWriter.mk w.delivered w.dev).writeFmt d (f.pieces (.err m))
    andThen (r.1, ⟨r.2.delivered, w.buffer, r.2.dev⟩) fun w => performShared d f w evs
  | ev :: evs => andThen (w.writeFmt d (f.pieces ev)) fun w => performShared d f w evs

/-- `main` (`main.rs:76-78`) with one device for both standard streams, as in `deliver`: what the device takes, and how the process ends. -/
def deliverShared (rt : Runtime) (u : CharTable) (f : Chunking u) (d : Device σ) (s : σ) (argv : List (List Byte)) : List Byte × Ending :=
  match envArgs argv with
  | none => ([], .status 101)
  | some args =>
    let r := doMain rt args
    let p := performShared d f ⟨[], [], s⟩ r.out
    let ended (code : Nat) : List Byte × Ending := ((p.2.flushBuf d).2.delivered, .status code)
    if p.1 then
      match r.res with
      | .ok code => ended code
      | .panic _ => ended 101
      | .diverge => (p.2.delivered, .never)
    else ended 101

end Ripcalc
