import Verif.Base
/-
Model of the log lines of the Java binding: experimental/java/log.go (`logOutputWriter`, `NextLogBatchJSON`).

Not modelled: zerolog and the levels. `diodes.ManyToOne` (go-diodes) is described from its documentation and source as calls one after the other: a ring of slots,
where a write replaces what its slot holds and a read that finds a newer entry than expected goes on from that entry. The ring has `cap` slots (1000 in the code).
Lines are lists of bytes.
-/
namespace Verif.Exp.JavaLog

/-- a log line (the bytes given to experimental/java/log.go:108-114) -/
abbrev Line := List Nat

/-- the `diodes.ManyToOne` ring made in experimental/java/log.go:48-70: capacity, slots with their sequence numbers, write and read index -/
structure Ring where
  cap : Nat
  buf : Nat → Option (Nat × Line)
  w : Nat
  r : Nat

/-- log.go:48 -/
def Ring.empty (cap : Nat) : Ring := ⟨cap, fun _ => none, 0, 0⟩

/-- log.go:106-112 `Write`, `Diode.Set` -/
def Ring.write (g : Ring) (l : Line) : Ring :=
  { g with buf := fun i => if i = g.w % g.cap then some (g.w, l) else g.buf i, w := g.w + 1 }

/-- part of `Diode.TryNext` as called in experimental/java/log.go:73-102: the read slot is emptied -/
def Ring.clear (g : Ring) : Ring := { g with buf := fun i => if i = g.r % g.cap then none else g.buf i }

/-- `Diode.TryNext`: the slot is emptied; an older entry is skipped, a newer one moves the reader; as called in experimental/java/log.go:73-102 -/
def Ring.next (g : Ring) : Option Line × Ring := match g.buf (g.r % g.cap) with
  | none => (none, g.clear)
  | some (q, l) => if q < g.r then (none, g.clear) else (some l, { g.clear with r := q + 1 })

/-- log.go:79-90: up to `n` lines, and the ring afterwards -/
def Ring.take (g : Ring) : Nat → List Line × Ring
  | 0 => ([], g)
  | n + 1 => match g.next with
    | (none, g) => ([], g)
    | (some l, g) => let (ls, g) := g.take n; (l :: ls, g)

/-- log.go:78-90: the lines with commas (44) between them -/
def commas : List Line → List Nat
  | [] => []
  | [l] => l
  | l :: m :: r => l ++ 44 :: commas (m :: r)

/-- log.go:92-101: brackets (91, 93) around them, or nothing -/
def brackets (b : List Nat) : Option (List Nat) := if b = [] then none else some (91 :: b ++ [93])

/-- log.go:73-102 `NextLogBatchJSON`; `none`: the logger is not set up, and the nil diode is used -/
def nextBatch (g : Option Ring) (n : Int) : Option (Option (List Nat) × Option Ring) :=
  if n ≤ 0 then some (none, g)
  else match g with
    | none => none
    | some g => let t := g.take n.toNat; some (brackets (commas t.1), some t.2)

/-! ### histories -/

/-- what a program does with the logger: a line is logged (experimental/java/log.go:108-114) or a batch is fetched (experimental/java/log.go:73-102) -/
inductive Op where
  | log (l : Line)
  | batch (n : Int)
deriving Repr, DecidableEq

/-- the ring and what the batches returned, oldest first; specification: a run of calls one after the other; models no code -/
def run : Ring → List Op → List (Option (List Nat)) × Ring
  | g, [] => ([], g)
  | g, .log l :: r => run (g.write l) r
  | g, .batch n :: r => match nextBatch (some g) n with
    | some (o, some g) => let t := run g r; (o :: t.1, t.2)
    | _ => ([], g)

end Verif.Exp.JavaLog
