import Verif.Exp.NioKey
/-
Model of the selector and of connecting in Java. All files are in experimental/java/examples/nio-java/src/main/java/com/ciscoopen/app:
`NaspSelectorProvider.java` (class `NaspSelector`), `NaspSocketChannel.java` and `NaspServerSocketChannel.java` (`translateReadyOps`, `connect`, `finishConnect`,
closing).

Of the JDK (environment): `SelectorImpl.processReadyEvents` without an action; `SelectionKeyImpl.hashCode` is any number; `Net.POLLIN`, `POLLOUT`, `POLLCONN`,
`POLLERR`, `POLLHUP`, `POLLNVAL` are 1, 4, 4, 8, 16, 32 as on Linux. A test `(x & mask) != 0` is written as a test of the bit. `Select` of Go is in NioKey.lean.
-/
namespace Verif.Exp.JavaSel
open Verif.Nio

/-- a selection key with what matters of its channel (JDK; NaspSocketChannel.java:259-290, NaspServerSocketChannel.java:97-124) -/
structure Key where
  hash : Nat
  server : Bool
  valid : Bool := true
  /-- the channel is connected -/
  connected : Bool := false
  interest : Nat := 0
  ready : Nat := 0
  /-- in the set of selected keys -/
  selected : Bool := false
deriving Repr, DecidableEq

/-- `b` as a set of one operation (JDK: the operations are bits; NaspSocketChannel.java:279-286) -/
def opIf (b : Bool) (op : Nat) : Nat := if b then op else 0

/-- `translateReadyOps` (NaspSocketChannel.java:259-290, NaspServerSocketChannel.java:97-124): the new ready set -/
def translate (k : Key) (ops init : Nat) : Nat :=
  if ops.testBit 5 then k.ready
  else if ops.testBit 3 || ops.testBit 4 then k.interest
  else if k.server then init ||| opIf (ops.testBit 0 && k.interest.testBit 4) 16
  else init ||| opIf (ops.testBit 0 && k.interest.testBit 0 && k.connected) 1 |||
    opIf (ops.testBit 2 && k.interest.testBit 3 && !k.connected) 8 ||| opIf (ops.testBit 2 && k.interest.testBit 2 && k.connected) 4

/-- `processReadyEvents` (JDK, called in NaspSelectorProvider.java:77): a selected key gets further operations, any other is selected if one of its operations is ready -/
def process (k : Key) (ops : Nat) : Key :=
  if k.selected then { k with ready := translate k ops k.ready }
  else let r := translate k ops 0
       { k with ready := r, selected := decide (r &&& k.interest ≠ 0) }

/-- the selector: keys by identity, and the table of the keys by hash code (NaspSelectorProvider.java:39) -/
structure Sel where
  keys : Nat → Key
  table : Nat → Option Nat

/-- replaces a key (NaspSelectorProvider.java:75-78) -/
def Sel.setKey (s : Sel) (i : Nat) (k : Key) : Sel := { s with keys := fun j => if j = i then k else s.keys j }

/-- `implRegister` (NaspSelectorProvider.java:96-99) -/
def Sel.register (s : Sel) (i : Nat) : Sel := { s with table := fun h => if h = (s.keys i).hash then some i else s.table h }

/-- `implDereg` (NaspSelectorProvider.java:106-108) -/
def Sel.dereg (s : Sel) (i : Nat) : Sel := { s with table := fun h => if h = (s.keys i).hash then none else s.table h }

/-- the loop of `doSelect` (NaspSelectorProvider.java:69-81) over the words of `Select` -/
def Sel.doSelect (s : Sel) : List Nat → Sel
  | [] => s
  | w :: ws =>
    let s1 := match s.table (keyId w) with
      | some i => if (s.keys i).valid then s.setKey i (process (s.keys i) (keyOp w)) else s
      | none => s
    s1.doSelect ws

/-- what a change of the interest set starts (NaspSelectorProvider.java:110-155) -/
inductive Cmd where
  | unregisterWriter (hash : Nat)
  | read (hash : Nat)
  | write (hash : Nat)
  | dial (hash : Nat)
  | saveSelector
  | accept (hash : Nat)
  /-- a `NullPointerException` -/
  | npe
deriving Repr, DecidableEq

/-- `setEventOps` (NaspSelectorProvider.java:110-155); `conn`: the channel has a connection; `addr`: an address to connect to is known. A failure ends it -/
def setEventOps (k : Key) (conn addr : Bool) : List Cmd :=
  (if k.interest.testBit 2 then [] else [.unregisterWriter k.hash]) ++
  (if k.server then (if k.interest.testBit 4 then [.accept k.hash] else [])
   else
    let rd : List Cmd := if k.interest.testBit 0 then (if conn then [.read k.hash] else [.npe]) else []
    let wr : List Cmd := if k.interest.testBit 2 then (if conn then [.write k.hash] else [.npe]) else []
    let cn : List Cmd := if k.interest.testBit 3 then (if addr then [.dial k.hash] else [.saveSelector]) else []
    if .npe ∈ rd then rd else if .npe ∈ wr then rd ++ wr else rd ++ wr ++ cn)

/-! ### connecting -/

/-- a channel opened by a client (NaspSocketChannel.java:26-32) with its dialer (experimental/java/main.go:551-571) -/
structure Ch where
  /-- `socket != null` -/
  sock : Bool := false
  sockConn : Option Nat := none
  conn : Option Nat := none
  connected : Bool := false
  addr : Option Nat := none
  /-- the selector was saved, for a key with the interest to connect -/
  sel : Bool := false
  /-- addresses being dialed -/
  dialing : List Nat := []
  /-- connections that were made and not fetched: number and address -/
  made : List (Nat × Nat) := []
  next : Nat := 0
  /-- addresses of all dials so far (ghost) -/
  dials : List Nat := []
  /-- address of every connection (ghost) -/
  addrOf : Nat → Nat := fun _ => 0
  /-- connections closed (ghost) -/
  closed : List Nat := []
  /-- an application saw a `NullPointerException` (ghost) -/
  npe : Bool := false
  /-- results of `finishConnect`, newest first (ghost) -/
  results : List Bool := []

/-- what a program does with a channel, and what the network does; NaspSocketChannel.java -/
inductive Act where
  | socket
  | connect (a : Nat)
  /-- the interest to connect is set -/
  | interest
  | dialOk
  | dialFail
  | finish
  | close
deriving Repr, DecidableEq

/-- `startAsyncDial` (experimental/java/main.go:573-587) -/
def Ch.startDial (c : Ch) (a : Nat) : Ch := { c with dialing := c.dialing ++ [a], dials := c.dials ++ [a] }

/-- the transition function -/
def exec (c : Ch) : Act → Ch
  -- NaspSocketChannel.java:87-92
  | .socket => if c.sock then c else { c with sock := true, sockConn := c.conn }
  -- NaspSocketChannel.java:105-113
  | .connect a =>
    let c := { c with addr := some a }
    if c.sock = false then { c with npe := true } else if c.sel then c.startDial a else c
  -- NaspSelectorProvider.java:136-147
  | .interest => match c.addr with
    | some a => c.startDial a
    | none => { c with sel := true }
  -- main.go:574-585
  | .dialOk => match c.dialing with
    | a :: r => { c with dialing := r, made := c.made ++ [(c.next, a)], next := c.next + 1, addrOf := fun x => if x = c.next then a else c.addrOf x }
    | [] => c
  | .dialFail => { c with dialing := c.dialing.tail }
  -- NaspSocketChannel.java:141-151, main.go:589-600
  | .finish => match c.made with
    | [] => { c with conn := none, results := false :: c.results }
    | (x, _) :: r =>
      let c := { c with made := r, conn := some x }
      if c.sock = false then { c with npe := true }
      else if c.sockConn = none then { c with sockConn := some x, connected := true, results := true :: c.results }
      else { c with results := true :: c.results }
  -- NaspSocketChannel.java:237-241
  | .close => match c.conn with
    | some x => { c with closed := x :: c.closed }
    | none => c

/-- a run (specification) -/
def run (c : Ch) (as : List Act) : Ch := as.foldl exec c

end Verif.Exp.JavaSel
