import Verif.Net.Ip
import Verif.Wasm.Middleware

/-!
The addresses of Java sockets: `GetAddress` and `GetRemoteAddress` of a connection
(experimental/java/main.go:346-368) and the getters of `NaspSocket`
(experimental/java/examples/nio-java/src/main/java/com/ciscoopen/app/NaspSocket.java:16-85).

`InetAddress.getByName` is a parameter, `I` the addresses it gives; an `InetSocketAddress` is the pair of
address and port, and cannot be made with a negative port.
-/

namespace Verif.JavaAddr

/-- A list of characters, as in `Net/Ip.lean`. (main.go:346-368) -/
abbrev Str := List Char

/-- What `GetAddress` does: an error, a panic, or host and port. (main.go:346-368) -/
inductive Res where
  | fails
  | crash
  | addr (host : Str) (port : Int)
deriving DecidableEq

/-- `int32(port)` (main.go:355, 367) -/
def toInt32 (n : Int) : Int := (n + 2147483648) % 4294967296 - 2147483648

/-- `GetAddress`, `GetRemoteAddress` (main.go:346-368) of the text of an address. Without a colon the
text is read as the port, and then `address[0:-1]` panics. -/
def getAddress (s : Str) : Res :=
  match Ip.splitLast s with
  | none => if (Wasm.Middleware.atoi s).2 then .fails else .crash
  | some (h, p) => if (Wasm.Middleware.atoi p).2 then .fails else .addr h (toInt32 (Wasm.Middleware.atoi p).1)

/-- A `NaspSocket`: the texts of the local and remote addresses of its connection if it has one, and the
address set. (NaspSocket.java:16-28) -/
structure Sock (I : Type) where
  conn : Option (Str × Str)
  address : Option I

/-- The result of a call: a value, an exception, or the end of the program. (NaspSocket.java:29-85) -/
inductive J (α : Type) where
  | value (a : α)
  | exception
  | crash
deriving DecidableEq

/-- `getPort`, `getLocalPort` (NaspSocket.java:29-37, 52-60); the exception is caught. -/
def port : Option Str → J Int
  | none => .value (-1)
  | some s => match getAddress s with
    | .fails => .value (-1)
    | .crash => .crash
    | .addr _ p => .value p

/-- `getInetAddress`, `getLocalAddress` (NaspSocket.java:38-50, 71-81): an exception is caught, and the
address set is taken; if there is none that is an exception. -/
def inet {I : Type} (byName : Str → Option I) (address : Option I) : Option Str → J I
  | none => match address with
    | some a => .value a
    | none => .exception
  | some s => match getAddress s with
    | .crash => .crash
    | .fails => match address with
      | some a => .value a
      | none => .exception
    | .addr h _ => match byName h with
      | some i => .value i
      | none => match address with
        | some a => .value a
        | none => .exception

/-- `getRemoteSocketAddress`, `getLocalSocketAddress` (NaspSocket.java:61-69) -/
def socketAddress {I : Type} (byName : Str → Option I) (address : Option I) (s : Option Str) : J (I × Int) :=
  match inet byName address s with
  | .exception => .exception
  | .crash => .crash
  | .value i => match port s with
    | .exception => .exception
    | .crash => .crash
    | .value p => if p < 0 then .exception else .value (i, p)

/-- `getRemoteSocketAddress` (NaspSocket.java:61-64) -/
def remote {I : Type} (byName : Str → Option I) (s : Sock I) : J (I × Int) :=
  socketAddress byName s.address (s.conn.map (·.2))

/-- `getLocalSocketAddress` (NaspSocket.java:66-69) -/
def localAddr {I : Type} (byName : Str → Option I) (s : Sock I) : J (I × Int) :=
  socketAddress byName s.address (s.conn.map (·.1))

/-- The text a server listens on and a dialer connects to, `"%s:%d"` (main.go:267, 606); ports of Java
are not negative. -/
def hostPort (h : Str) (p : Nat) : Str := h ++ ':' :: Ip.dec p

/-- Where a Java program's connection to host and port goes, or what its server listens on, if nothing
of the mesh applies (main.go:266-270, 601-606; `net.Dial` and `net.Listen` as in `Net/Ip.lean`); `none`
is an error. -/
def target (h : Str) (p : Nat) : Option Ip.Target := Ip.dialTarget (hostPort h p)

end Verif.JavaAddr
