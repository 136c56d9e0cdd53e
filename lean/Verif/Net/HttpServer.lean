import Verif.Net.Unified
/-
Model of HTTP servers started through pkg/network/http.go (`Serve`, `ServeWithTLSConfig`, `ServeTLS`), with the listener of Net/Unified.lean and
the loop of net/http `Server.Serve` around its `Accept`. (The server of the mesh, pkg/istio/istio.go:487, is started with `ServeWithTLSConfig`.)

A client is the bytes it sends, how they end, and whether the error of a failed read is a temporary one for net/http (that of a connection that
is reset is not). What the HTTP server then does with a connection, in a goroutine of its own, is not modelled.
-/
namespace Verif.Net.HttpServer
open Verif Verif.Unified

/-- a client (environment) -/
structure Client where
  src : Src
  temporary : Bool
deriving DecidableEq, Repr

/-- the connection the HTTP server is given: through TLS, in plain text, or one that was closed before (unified_tls_listener.go:150-153) -/
inductive Saw where
  | tls (c : Conn)
  | plain (c : Conn)
  | closed
deriving DecidableEq, Repr

/-- what the loop does after these clients: it waits for the next, it hangs in `Accept`, or `Serve` has returned with an error -/
inductive End where
  | waiting
  | hangs
  | returned
deriving DecidableEq, Repr

/-- The loop of net/http `Server.Serve`, entered at http.go:86 and http.go:97: for every client, with the mode the listener has when it comes, the
connection handed on; a temporary error is waited for, any other one ends the loop. -/
def loop : List (Mode × Client) → List Saw × End
  | [] => ([], .waiting)
  | (m, c) :: r => match accept m c.src with
    | .tls x => (.tls x :: (loop r).1, (loop r).2)
    | .plain x => (.plain x :: (loop r).1, (loop r).2)
    | .closed => (.closed :: (loop r).1, (loop r).2)
    | .error => if c.temporary then loop r else ([], .returned)
    | .blocked => ([], .hangs)

/-- how the server is started; for `ServeTLS`: whether the files can be loaded and the system has roots (http.go:100-108) -/
inductive Start where
  | serve
  | serveWithTLSConfig
  | serveTLS (files roots : Bool)
deriving DecidableEq, Repr

/-- the mode of the listener made by http.go:77-86, 88-97 and 99-118; none: an error is returned before anything is accepted -/
def Start.mode : Start → Option Mode
  | .serve => some .disabled
  | .serveWithTLSConfig => some .permissive
  | .serveTLS files roots => if files && roots then some .permissive else none

/-- a server and its clients; the mode stays as it is unless someone changes it through `GetUnifiedListener` (http.go:73-75): `set` has, for each
client, the mode set before it comes, if any -/
def modes : Mode → List (Option Mode × Client) → List (Mode × Client)
  | _, [] => []
  | _, (some m', c) :: r => (m', c) :: modes m' r
  | m, (none, c) :: r => (m, c) :: modes m r

/-- http.go:77-118 -/
def serve (st : Start) (clients : List (Option Mode × Client)) : List Saw × End := match st.mode with
  | none => ([], .returned)
  | some m => loop (modes m clients)

end Verif.Net.HttpServer
