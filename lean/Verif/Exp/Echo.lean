/-!
The TCP part of the echo server: `handleConnection` (components/echo-server/main.go:201-228).

Bytes are numbers. `bufio.Reader` hands out bytes in the order they arrive, whatever the pieces; a read
error of any kind ends the connection and what was read of a line is dropped. A write either succeeds or
fails without sending anything; a failure is logged and the loop goes on.
-/

namespace Verif.Echo

/-- `'\n'` (main.go:207) -/
def nl : Nat := 10

/-- The connection as its handler has it: the part of a line read, what was sent, and how many writes were
made. (main.go:201-228) -/
structure St where
  part : List Nat := []
  sent : List Nat := []
  writes : Nat := 0

/-- A line is answered: the prefix, a blank, the line (main.go:217-225); `ok` tells which writes succeed. -/
def answer (pre : List Nat) (ok : Nat → Bool) (s : St) (line : List Nat) : St :=
  { part := [], sent := if ok s.writes then s.sent ++ (pre ++ 32 :: line) else s.sent, writes := s.writes + 1 }

/-- One more byte is read. (main.go:207) -/
def byte (pre : List Nat) (ok : Nat → Bool) (s : St) (b : Nat) : St :=
  if b = nl then answer pre ok s (s.part ++ [b]) else { s with part := s.part ++ [b] }

/-- A piece arrives: all lines that are complete are answered, then the handler waits. (main.go:204-227) -/
def piece (pre : List Nat) (ok : Nat → Bool) (s : St) (p : List Nat) : St := p.foldl (byte pre ok) s

/-- All pieces of a connection, until the peer closes or reading fails. (main.go:201-228) -/
def handle (pre : List Nat) (ok : Nat → Bool) (ps : List (List Nat)) : St := ps.foldl (piece pre ok) {}

end Verif.Echo
