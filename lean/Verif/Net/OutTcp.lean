import Verif.Base
/-
Model of the outgoing side of TCP: `/repo/pkg/istio/tcp/dialer.go:55-117` (`tcpDialer.DialContext`) with the pool registry
(`/repo/pkg/network/pool/syncmap_registry.go`) and the pools' `Get` (`/repo/pkg/network/pool/channel.go`) reduced to what
matters here: a pool hands out an idle connection of its own or calls the factory it was created with.  (The pool and the
registry themselves are modelled in full in Pool/Channel and Pool/Registry.)

Hosts, addresses, TLS identities, contexts, connections and calls are numbers.  `TLS identity` stands for the server name
and the certificate verifier made from one cluster's settings (dialer.go:62-64); `none` means no TLS.
-/
namespace Verif.Net.OutTcp

/-- What the mesh says about a host: the endpoint to use (none: no endpoint available) and the TLS identity
(`discovery.ClientProperties`). (the surroundings of pkg/istio/tcp/dialer.go; a parameter of the model) -/
structure Peer where
  addr : Option Nat
  tls : Option Nat
deriving Repr, DecidableEq

/-- where a goroutine is (program counter in pkg/istio/tcp/dialer.go) -/
inductive Phase
  /-- before `HasPool` (dialer.go:92) -/
  | start
  /-- found no pool, will add one (dialer.go:93-103) -/
  | adding
  /-- before `GetPool` (dialer.go:106) -/
  | fetch
  /-- holds pool `p`, before `Get` returns (dialer.go:113) -/
  | get (p : Nat)
  /-- not called yet, or returned -/
  | done
deriving Repr, DecidableEq

/-- A call of `DialContext`: its context, the address after discovery, and the TLS settings its dialer was built with. (pkg/istio/tcp/dialer.go) -/
structure Call where
  ctx : Nat
  addr : Nat
  tls : Option Nat
deriving Repr, DecidableEq

/-- as used in pkg/istio/tcp/dialer.go -/
inductive Why
  /-- no endpoint, no pool, network failure -/
  | other
  /-- the context `x` was cancelled -/
  | cancelled (x : Nat)
deriving Repr, DecidableEq

/-- Observable events, newest first. specification / ghost trace; models no code -/
inductive Ev
  /-- `DialContext` number `k` was called with context `x`; the mesh wants a connection to `a` with TLS identity `t` -/
  | asked (k x a : Nat) (t : Option Nat)
  /-- connection `c` was established to `a` with TLS identity `t` -/
  | made (c a : Nat) (t : Option Nat)
  /-- call `k` returned connection `c` -/
  | got (k c : Nat)
  /-- call `k` returned an error -/
  | failed (k : Nat) (w : Why)
  | cancelled (x : Nat)
deriving Repr, DecidableEq

/-- the state of pkg/istio/tcp/dialer.go, with the environment and ghost fields -/
structure St where
  /-- the current configuration of the mesh, by host -/
  mesh : Nat → Option Peer
  calls : Nat → Option Call
  phase : Nat → Phase
  /-- the registry: address to pool; a pool is named after the call whose factory it has -/
  pools : Nat → Option Nat
  /-- idle connections: connection to the pool holding it -/
  idle : Nat → Option Nat
  /-- all connections ever made: the pool that made it -/
  conns : Nat → Option Nat
  cancelled : Nat → Bool
  tr : List Ev

/-- the state of pkg/istio/tcp/dialer.go, with the environment and ghost fields -/
def St.init : St :=
  { mesh := fun _ => none, calls := fun _ => none, phase := fun _ => .done, pools := fun _ => none, idle := fun _ => none, conns := fun _ => none,
    cancelled := fun _ => false, tr := [] }

/-- update of a component; models no code -/
def put {α : Type} (f : Nat → α) (i : Nat) (a : α) : Nat → α := fun j => if j = i then a else f j

/-- the address the mesh wants for a host; (specification; models no code) -/
def wantAddr (p : Option Peer) (host : Nat) : Nat :=
  match p with
  | some ⟨some a, _⟩ => a
  | _ => host
/-- the TLS identity the mesh wants for a host; (specification; models no code) -/
def wantTls (p : Option Peer) : Option Nat :=
  match p with
  | some p => p.tls
  | none => none

/-- the atomic steps and calls of pkg/istio/tcp/dialer.go, and what the surroundings do; the lines are cited at the steps or in the transition function -/
inductive Act
  /-- the control plane changes what it says about a host -/
  | config (host : Nat) (p : Option Peer)
  /-- dialer.go:58-71; `err`: discovery failed, which the code ignores (`prop, _ :=`) -/
  | begin (k ctx host : Nat) (err : Bool)
  /-- dialer.go:92 -/
  | check (k : Nat)
  /-- dialer.go:94-103; `LoadOrStore` (syncmap_registry.go) keeps an existing pool -/
  | add (k : Nat)
  /-- dialer.go:106-109 -/
  | fetch (k : Nat)
  /-- dialer.go:113: `Get` returns idle connection `c` -/
  | take (k c : Nat)
  /-- dialer.go:113: `Get` calls the pool's factory (dialer.go:75-90), which makes connection `c` or, `ok = false`, fails -/
  | create (k c : Nat) (ok : Bool)
  /-- the user closes connection `c`: it returns to its pool -/
  | giveBack (c : Nat)
  /-- the registry's cleanup removes the pool of an address -/
  | gone (a : Nat)
  /-- context `x` is cancelled -/
  | cancel (x : Nat)
deriving Repr, DecidableEq

/-- the transition function of the steps (pkg/istio/tcp/dialer.go); the lines are cited at the steps or at the cases -/
def exec (st : St) : Act → Option St
  | .config host p => some { st with mesh := put st.mesh host p }
  | .begin k ctx host err =>
    match st.calls k with
    | some _ => none
    | none =>
      let tr := Ev.asked k ctx (wantAddr (st.mesh host) host) (wantTls (st.mesh host)) :: st.tr
      match (if err then none else st.mesh host) with
      | none => some { st with
          calls := put st.calls k (some ⟨ctx, host, none⟩), phase := put st.phase k .start, tr := tr }
      | some ⟨none, t⟩ => some { st with
          calls := put st.calls k (some ⟨ctx, host, t⟩), phase := put st.phase k .done, tr := .failed k .other :: tr }
      | some ⟨some a, t⟩ => some { st with
          calls := put st.calls k (some ⟨ctx, a, t⟩), phase := put st.phase k .start, tr := tr }
  | .check k =>
    match st.calls k, st.phase k with
    | some i, .start => some { st with phase := put st.phase k (if (st.pools i.addr).isSome then .fetch else .adding) }
    | _, _ => none
  | .add k =>
    match st.calls k, st.phase k with
    | some i, .adding => some { st with
        phase := put st.phase k .fetch
        pools := if (st.pools i.addr).isSome then st.pools else put st.pools i.addr (some k) }
    | _, _ => none
  | .fetch k =>
    match st.calls k, st.phase k with
    | some i, .fetch =>
      match st.pools i.addr with
      | none => some { st with phase := put st.phase k .done, tr := .failed k .other :: st.tr }
      | some p => some { st with phase := put st.phase k (.get p) }
    | _, _ => none
  | .take k c =>
    match st.phase k with
    | .get p =>
      if st.idle c = some p then
        some { st with phase := put st.phase k .done, idle := put st.idle c none, tr := .got k c :: st.tr }
      else none
    | _ => none
  | .create k c ok =>
    match st.phase k with
    | .get p =>
      match st.calls p, st.conns c with
      | some f, none =>
        if st.cancelled f.ctx then
          some { st with phase := put st.phase k .done, tr := .failed k (.cancelled f.ctx) :: st.tr }
        else if ok then
          some { st with
            phase := put st.phase k .done, conns := put st.conns c (some p),
            tr := .got k c :: .made c f.addr f.tls :: st.tr }
        else some { st with phase := put st.phase k .done, tr := .failed k .other :: st.tr }
      | _, _ => none
    | _ => none
  | .giveBack c =>
    match st.conns c with
    | some p => some { st with idle := put st.idle c (some p) }
    | none => none
  | .gone a => some { st with pools := put st.pools a none }
  | .cancel x => some { st with cancelled := put st.cancelled x true, tr := .cancelled x :: st.tr }

/-- runs (specification; models no code) -/
inductive Reach (g : St → Act → Prop) : St → Prop
  | init : Reach g St.init
  | step {st st' : St} (a : Act) : Reach g st → g st a → exec st a = some st' → Reach g st'

/-! ### Specification, on traces only -/

/-- every connection returned to a caller goes to the address its host resolved to when it asked; (specification; models no code) -/
def RightAddress (tr : List Ev) : Prop :=
  ∀ k c x a t, Ev.got k c ∈ tr → Ev.asked k x a t ∈ tr → ∃ t', Ev.made c a t' ∈ tr
/-- every connection returned to a caller has the TLS identity the mesh had for its host when it asked; (specification; models no code) -/
def Secured (tr : List Ev) : Prop :=
  ∀ k c x a t, Ev.got k c ∈ tr → Ev.asked k x a t ∈ tr → Ev.made c a t ∈ tr
/-- a call reports a cancellation only of its own context, and only when it was cancelled; (specification; models no code) -/
def OwnContext (tr : List Ev) : Prop :=
  ∀ k x y a t, Ev.failed k (.cancelled y) ∈ tr → Ev.asked k x a t ∈ tr → x = y ∧ Ev.cancelled x ∈ tr

/-- No restriction. specification / ghost trace; models no code -/
def Anything (_ : St) (_ : Act) : Prop := True
/-- Guard: discovery does not fail. specification / ghost trace; models no code -/
def Discovering (_ : St) : Act → Prop
  | .begin _ _ _ err => err = false
  | _ => True
/-- Guard: besides, the TLS settings wanted for an address never change. specification / ghost trace; models no code -/
def Settled (st : St) : Act → Prop
  | .begin _ _ host err => err = false ∧ ∀ k x a t, Ev.asked k x a t ∈ st.tr →
      a = wantAddr (st.mesh host) host → t = wantTls (st.mesh host)
  | _ => True
/-- Guard: all calls share one context, say the background context. specification / ghost trace; models no code -/
def OneContext (st : St) : Act → Prop
  | .begin _ x _ _ => ∀ k y a t, Ev.asked k y a t ∈ st.tr → x = y
  | _ => True

end Verif.Net.OutTcp
