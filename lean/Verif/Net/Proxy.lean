import Verif.Base
/-
Model of pkg/network/proxy/proxy.go: relaying between two connections.
A connection is seen from the proxy: what its peer sent and is not read yet, what the proxy wrote to it. Whether a connection can close
one direction only (`half`) is a property of its type. The two goroutines are `L` (reads the left connection) and `R`.
Simplifications: a write is taken over as a whole or fails as a whole (`io.CopyBuffer` stops at a short write as well);
`io.CopyBuffer` may use `ReadFrom`/`WriteTo` of the connections, which move the same bytes in other chunks.
-/
namespace Verif.Net.Proxy

/-- as used in pkg/network/proxy/proxy.go -/
inductive Side where
  | L | R
deriving DecidableEq, Repr

/-- as used in pkg/network/proxy/proxy.go -/
def Side.other : Side → Side
  | .L => .R
  | .R => .L

/-- as used in pkg/network/proxy/proxy.go -/
structure Conn where
  /-- it has `CloseWrite` -/
  half : Bool
  inq : List UInt8 := []
  eof : Bool := false
  out : List UInt8 := []
  /-- the proxy closed the writing direction -/
  wclosed : Bool := false
  /-- the proxy closed the connection -/
  closed : Bool := false
  /-- the network or the peer broke the connection -/
  broken : Bool := false
  /-- ghost: everything the peer sent -/
  sent : List UInt8 := []
deriving DecidableEq, Repr

/-- a goroutine of `Start`; where a goroutine is (program counter in pkg/network/proxy/proxy.go) -/
inductive Copier where
  | reading
  | writing (chunk : List UInt8)
  /-- `io.CopyBuffer` returned; `ok`: without error -/
  | ended (ok : Bool)
  | done (ok : Bool)
deriving DecidableEq, Repr

/-- the state of pkg/network/proxy/proxy.go, with the environment and ghost fields -/
structure St where
  conn : Side → Conn
  cop : Side → Copier := fun _ => .reading
  bufferSize : Nat

/-- the atomic steps and calls of pkg/network/proxy/proxy.go, and what the surroundings do; the lines are cited at the steps or in the transition function -/
inductive Act where
  | peerSend (s : Side) (bs : List UInt8)
  | peerEof (s : Side)
  | peerBreak (s : Side)
  | read (s : Side) (n : Nat)
  | readEof (s : Side)
  | readErr (s : Side)
  | write (s : Side)
  | writeErr (s : Side)
  | closeDst (s : Side)

/-- update of a component; models no code -/
def updS {α : Type} (f : Side → α) (s : Side) (v : α) : Side → α := fun s' => if s' = s then v else f s'

@[simp] theorem updS_same {α : Type} (f : Side → α) (s : Side) (v : α) : updS f s v s = v := by simp [updS]
theorem updS_ne {α : Type} (f : Side → α) {s s' : Side} (v : α) (h : s' ≠ s) : updS f s v s' = f s' := by simp [updS, h]

/-- the transition function of the steps (pkg/network/proxy/proxy.go); the lines are cited at the steps or at the cases -/
def exec (st : St) : Act → Option St
  | .peerSend s bs =>
    let c := st.conn s
    if c.eof || c.broken then none else some { st with conn := updS st.conn s { c with inq := c.inq ++ bs, sent := c.sent ++ bs } }
  | .peerEof s =>
    let c := st.conn s
    if c.eof || c.broken then none else some { st with conn := updS st.conn s { c with eof := true } }
  | .peerBreak s => some { st with conn := updS st.conn s { st.conn s with broken := true } }
  /- proxy.go:94-101 `io.CopyBuffer`: read at most `bufferSize` bytes, -/
  | .read s n =>
    let c := st.conn s
    if st.cop s = .reading ∧ c.closed = false ∧ 1 ≤ n ∧ n ≤ st.bufferSize ∧ n ≤ c.inq.length then
      some { st with conn := updS st.conn s { c with inq := c.inq.drop n }, cop := updS st.cop s (.writing (c.inq.take n)) }
    else none
  | .readEof s =>
    let c := st.conn s
    if st.cop s = .reading ∧ c.closed = false ∧ c.inq = [] ∧ c.eof = true then some { st with cop := updS st.cop s (.ended true) }
    else none
  | .readErr s =>
    let c := st.conn s
    if st.cop s = .reading ∧ (c.closed = true ∨ c.broken = true) then some { st with cop := updS st.cop s (.ended false) } else none
  /- write them to the other connection, -/
  | .write s =>
    let c := st.conn s.other
    match st.cop s with
    | .writing bs =>
      if c.wclosed = false ∧ c.closed = false ∧ c.broken = false then
        some { st with conn := updS st.conn s.other { c with out := c.out ++ bs }, cop := updS st.cop s .reading }
      else none
    | _ => none
  | .writeErr s =>
    let c := st.conn s.other
    match st.cop s with
    | .writing _ => if c.wclosed = true ∨ c.closed = true ∨ c.broken = true then some { st with cop := updS st.cop s (.ended false) } else none
    | _ => none
  /- proxy.go:62-79, 83-92: close the other connection, or its writing direction -/
  | .closeDst s =>
    let c := st.conn s.other
    match st.cop s with
    | .ended ok =>
      some { st with
        conn := updS st.conn s.other (if c.half then { c with wclosed := true } else { c with wclosed := true, closed := true })
        cop := updS st.cop s (.done ok) }
    | _ => none

/-- proxy.go:81: `Start` has returned -/
def returned (st : St) : Prop := ∀ s, ∃ ok, st.cop s = .done ok

/-- the state of pkg/network/proxy/proxy.go, with the environment and ghost fields -/
def fresh (hl hr : Bool) (size : Nat) : St := { conn := fun s => { half := match s with | .L => hl | .R => hr }, bufferSize := size }

/-- runs (specification; models no code) -/
inductive Reach (guard : Act → Prop) (st0 : St) : St → Prop where
  | init : Reach guard st0 st0
  | step {s s' : St} {a : Act} : Reach guard st0 s → guard a → exec s a = some s' → Reach guard st0 s'

/-- runs (specification; models no code) -/
def run (st : St) : List Act → Option St
  | [] => some st
  | a :: as => match exec st a with
    | none => none
    | some s => run s as

end Verif.Net.Proxy
