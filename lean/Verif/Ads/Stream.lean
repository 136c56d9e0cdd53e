import Verif.Base
/-
Model of the life of the stream to the management server: pkg/ads/client.go:193-225, 280-406, 487-506 (`connectToStream` from where it has a stream,
`handleStream`, `handleStreamReceive`, `handleStreamSend`, `apiResultsRefresher`) and the loop of `Connect` (pkg/ads/api.go:171-194).

Only what concerns the three goroutines, their channels and their context is modelled; what a response does is in Ads/Client.lean. The errgroup
cancels the context of the three at the first error, or with the context of the client. A connection that cannot be made is a stream that breaks at once.
-/
namespace Verif.Ads.Stream

/-- the errors that matter to api.go:180-182: cancelled (the context or the gRPC status), or any other -/
inductive Err where
  | canceled
  | other
deriving DecidableEq, Repr

/-- where the receiver is (client.go:317-366): before the `select`, in `Recv`, about to send this many requests to the sender (the answer to the response
and new subscriptions), about to announce the update, returned -/
inductive RPh where
  | top
  | waiting
  | push (n : Nat)
  | upd
  | done
deriving DecidableEq, Repr

/-- where the sender is (client.go:373-406) -/
inductive SPh where
  | top
  | sending
  | done
deriving DecidableEq, Repr

/-- where the refresher is (client.go:489-506) -/
inductive FPh where
  | top
  | refreshing
  | done
deriving DecidableEq, Repr

/-- the capacity of the channel of requests (client.go:195) -/
def cap : Nat := 100

/-- the client; `parent`: its context is cancelled; `group`: that of the three goroutines is; `broken`: how the stream ended; `queue`: requests in the
channel; `result`: the first error; `attempts`: the streams so far (ghost); `stopped`: `Connect` has given up -/
structure St where
  parent : Bool := false
  group : Bool := false
  broken : Option Err := none
  recv : RPh := .top
  send : SPh := .top
  ref : FPh := .top
  queue : Nat := 3
  result : Option Err := none
  attempts : Nat := 1
  stopped : Bool := false
deriving DecidableEq, Repr

/-- a goroutine of the errgroup returns with an error -/
def St.fail (s : St) (e : Err) : St := { s with group := true, result := s.result.or (some e) }

/-- the steps; the lines are cited in the transition function -/
inductive Act where
  /-- the context of the client is cancelled -/
  | cancel
  /-- the stream ends (environment) -/
  | «break» (e : Err)
  | recvTop
  /-- a response comes: whether its type is supported, and how many new subscriptions it leads to -/
  | recvMsg (supported : Bool) (subs : Nat)
  | recvErr
  | recvPush
  | handoff
  | refDone
  | refTop
  | sendTake
  | sendOk
  | sendErr
  | sendTop
  /-- `g.Wait` returns, and the loop of `Connect` goes on -/
  | retry
deriving DecidableEq, Repr

/-- the transition function -/
def exec (s : St) : Act → Option St
  -- the stream was opened with the context of the client (client.go:185-187)
  | .cancel => some { s with parent := true, group := true, broken := s.broken.or (some .canceled) }
  | .break e => if s.broken = none then some { s with broken := some e } else none
  -- client.go:321-325
  | .recvTop => if s.recv = .top then (if s.group then some { s.fail .canceled with recv := .done } else some { s with recv := .waiting }) else none
  -- client.go:325, 330-348
  | .recvMsg ok k => if s.recv = .waiting then (if ok then some { s with recv := .push (k + 1) } else some { s with recv := .done }) else none
  -- client.go:326-328
  | .recvErr => if s.recv = .waiting then match s.broken with
      | some e => some { s.fail e with recv := .done }
      | none => none
    else none
  -- client.go:348-361 with 240, 265: a send to a channel of capacity 100
  | .recvPush => match s.recv with
    | .push (n + 1) => if s.queue < cap then some { s with queue := s.queue + 1, recv := if n = 0 then .upd else .push n } else none
    | _ => none
  -- client.go:362 and 494: a channel without a buffer
  | .handoff => if s.recv = .upd ∧ s.ref = .top then some { s with recv := .top, ref := .refreshing } else none
  -- client.go:495-503
  | .refDone => if s.ref = .refreshing then some { s with ref := .top } else none
  -- client.go:492-493
  | .refTop => if s.ref = .top ∧ s.group then some { s.fail .canceled with ref := .done } else none
  -- client.go:385
  | .sendTake => if s.send = .top ∧ 0 < s.queue then some { s with queue := s.queue - 1, send := .sending } else none
  -- client.go:388-400
  | .sendOk => if s.send = .sending ∧ s.broken = none then some { s with send := .top } else none
  -- client.go:401-403: `Send` on a stream that has ended returns io.EOF
  | .sendErr => if s.send = .sending ∧ s.broken ≠ none then some { s.fail .other with send := .done } else none
  -- client.go:383-384
  | .sendTop => if s.send = .top ∧ s.group then some { s.fail .canceled with send := .done } else none
  -- client.go:294, api.go:176-190: nil and cancellation end the loop, and so does the context of the backoff
  | .retry => if s.stopped = false ∧ s.recv = .done ∧ s.send = .done ∧ s.ref = .done then
      (if s.parent ∨ s.result ≠ some .other then some { s with stopped := true }
       else some { attempts := s.attempts + 1 })
    else none

/-- a step of the client itself: not of the management server and not a cancellation; responses are from the server -/
def Act.internal : Act → Bool
  | .cancel => false
  | .break _ => false
  | .recvMsg _ _ => false
  | _ => true

/-- runs with a condition on the steps -/
inductive Reach (g : St → Act → Prop) : St → Prop where
  | init : Reach g {}
  | step {s s' : St} {a : Act} : Reach g s → g s a → exec s a = some s' → Reach g s'

/-- what can follow, under a condition on the steps -/
inductive Later (g : St → Act → Prop) : St → St → Prop where
  | refl (s : St) : Later g s s
  | step {s s1 s2 : St} {a : Act} : Later g s s1 → g s1 a → exec s1 a = some s2 → Later g s s2

/-- a run, for the examples -/
def run (s : St) : List Act → Option St
  | [] => some s
  | a :: as => (exec s a).bind fun s' => run s' as

end Verif.Ads.Stream
