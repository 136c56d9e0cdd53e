import Verif.Heimdall.Text
/-
Model of pkg/network/connection_state_tracker.go and pkg/network/listener/multi_listener_address.go.
-/
namespace Verif.Net.Track
open Verif.Heimdall

/-- a layer of a connection, the next one being reached by `NetConn` or `GetConn`: its TLS state, if it is a TLS connection, and the
connection state its getter returns, if it has a getter that returns one; (pkg/network/connection_state_tracker.go) -/
structure Layer where
  tls : Option Nat := none
  state : Option Nat := none
deriving DecidableEq, Repr

/-- connection_state_tracker.go:66-92 `getConnectionState`; `tls` and `state` are the fields of the tracker. The result are the state and
the TLS connection the tracker ends with. -/
def track : List Layer → Option Nat → Option Nat → Option Nat × Option Nat
  | [], tls, state => (state, tls)
  | l :: ls, tls, state =>
    let tls' := if l.tls.isSome then l.tls else tls
    if l.tls.isSome && state.isSome then (state, tls')
    else track ls tls' (if state.isNone then l.state else state)

/-- connection_state_tracker.go:32-42 `ConnectionStateFromNetConn`: the state and the TLS state that is set on it -/
def connectionState (ls : List Layer) : Option (Nat × Option Nat) :=
  match track ls none none with
  | (none, _) => none
  | (some s, t) => some (s, t)

/-! ### addresses of several listeners -/

/-- as used in pkg/network/connection_state_tracker.go -/
structure Addr where
  net : Str
  addr : Str
deriving DecidableEq, Repr

/-- multi_listener_address.go:55-73 `Addr`: the listeners in the order of an iteration over a `sync.Map` -/
def addrOf (ls : List Addr) : Addr := ⟨join ',' (ls.map (·.net)), join ',' (ls.map (·.addr))⟩

/-- as used in pkg/network/connection_state_tracker.go -/
def zipAddrs : List Str → List Str → List Addr
  | n :: ns, a :: as => ⟨n, a⟩ :: zipAddrs ns as
  | _, _ => []

/-- multi_listener_address.go:35-53 `Addrs`: it iterates twice, so the orders may differ -/
def addrs (order1 order2 : List Addr → List Addr) (ls : List Addr) : List Addr :=
  zipAddrs (split ',' (addrOf (order1 ls)).net) (split ',' (addrOf (order2 ls)).addr)

end Verif.Net.Track
