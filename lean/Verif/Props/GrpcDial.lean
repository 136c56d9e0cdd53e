import Verif.Net.GrpcDial
/-
Property theorem C140 (gRPC connections are made as the mesh says).
-/
namespace Verif.Props.GrpcDial
open Verif.Net.GrpcDial

/-! ### specification -/

/-- the connection a peer of the mesh asks for -/
def Wanted (p : Peer) (c : Conn) : Prop :=
  p.addr = some c.addr ∧ c.tls = p.useTLS ∧ (p.useTLS = true → c.serverName = some p.serverName ∧ c.verifier = some p.verifier)

def Any : St → Act → Prop := fun _ _ => True

/-- gRPC calls only use the newest connection -/
def Newest : St → Act → Prop
  | s, .call i => i + 1 = s.conns.length
  | _, _ => True

/-- **C140** A connection for a host the mesh knows goes to an endpoint of it, and asks for the server name of the mesh; without an
endpoint none is made. A connection for another host goes to that host. -/
theorem C140_address (w : World) (s s' : St) (h : Nat) (p : Option Peer) (he : exec w s (.dial h p) = some s') :
    ∃ c, s'.conns = s.conns ++ [c] ∧ established w c = true ∧
      (∀ q, p = some q → q.addr = some c.addr ∧ c.serverName = some q.serverName) ∧ (p = none → c.addr = h) := by
  unfold exec at he
  cases hp : plan h p with
  | none => simp only [hp] at he; cases he
  | some c =>
    simp only [hp] at he
    by_cases hw : established w c = true
    · rw [if_pos hw] at he
      injection he with he; subst he
      refine ⟨c, rfl, hw, ?_, ?_⟩
      · rintro q rfl
        unfold plan at hp
        cases ha : q.addr with
        | none => simp only [ha] at hp; cases hp
        | some a => simp only [ha] at hp; injection hp with hp; subst hp; exact ⟨rfl, rfl⟩
      · rintro rfl
        injection hp with hp; subst hp; rfl
    · rw [if_neg hw] at he; cases he

/-- **C140** Every connection uses TLS. -/
theorem C140_encrypted (w : World) (s : St) (h : Reach w Any s) : ∀ c ∈ s.conns, c.tls = true := by
  induction h with
  | init => intro c hc; cases hc
  | @step s s' a _ _ he ih =>
    cases a with
    | call i =>
      unfold exec at he
      simp only at he
      split at he
      · injection he with he; subst he; exact ih
      · cases he
    | dial h p =>
      unfold exec at he
      cases hp : plan h p with
      | none => simp only [hp] at he; cases he
      | some c =>
        simp only [hp] at he
        split at he
        · injection he with he; subst he
          intro d hd
          rcases List.mem_append.mp hd with hd | hd
          · exact ih d hd
          · rw [List.mem_singleton.mp hd]
            unfold plan at hp
            split at hp
            · injection hp with hp; rw [← hp]
            · split at hp
              · cases hp
              · injection hp with hp; rw [← hp]
        · cases he

/-- **C218** (partial) If calls only use the newest connection, the filters see the state of the connection that carries the call. -/
theorem C218_state_partial (w : World) (s : St) (h : Reach w Newest s) : ∀ i t, (i, t) ∈ s.calls → t = some i := by
  have key : (s.conns ≠ [] → s.state = some (s.conns.length - 1)) ∧ ∀ i t, (i, t) ∈ s.calls → t = some i := by
    induction h with
    | init => exact ⟨fun h => absurd rfl h, fun i t ht => by cases ht⟩
    | @step s s' a _ hg he ih =>
      cases a with
      | call i =>
        unfold exec at he
        simp only at he
        split at he
        · rename_i hl
          injection he with he; subst he
          refine ⟨ih.1, ?_⟩
          intro j t hj
          have hj' : (j, t) ∈ (i, s.state) :: s.calls := hj
          rcases List.mem_cons.mp hj' with hj | hj
          · injection hj with h1 h2
            have hlen : i + 1 = s.conns.length := hg
            rw [h2, h1, ih.1 (by intro h0; rw [h0] at hl; exact absurd hl (by simp))]
            congr 1; omega
          · exact ih.2 j t hj
        · cases he
      | dial h p =>
        unfold exec at he
        cases hp : plan h p with
        | none => simp only [hp] at he; cases he
        | some c =>
          simp only [hp] at he
          split at he
          · injection he with he; subst he
            refine ⟨fun _ => ?_, ih.2⟩
            show some s.conns.length = some ((s.conns ++ [c]).length - 1)
            simp
          · cases he
  exact key.2

/-- one server that speaks TLS and presents certificate 9, and one that does not speak TLS; the verifier 1 accepts certificate 1 only -/
def w0 : World := ⟨fun a => if a = 10 then some ⟨true, 9⟩ else if a = 11 then some ⟨false, 0⟩ else if a = 12 then some ⟨true, 1⟩ else none, fun v c => v == c⟩

/-- the hypotheses are met -/
example : (runActs w0 {} [.dial 1 (some ⟨some 12, true, 5, 1⟩), .call 0, .dial 2 none, .dial 2 (some ⟨some 12, true, 5, 1⟩), .call 1]).isNone = true ∧
    (runActs w0 {} [.dial 1 (some ⟨some 12, true, 5, 1⟩), .call 0, .dial 2 (some ⟨some 10, true, 6, 9⟩), .call 1]).map (·.calls) =
      some [(1, some 1), (0, some 0)] := by decide

/-- **C218** fails: the certificate of a server is never verified, so a server whose certificate the verifier of the mesh refuses is talked to; and
a server the mesh says does not use TLS cannot be reached. -/
theorem C218_verify_false :
    (∃ s c, runActs w0 {} [.dial 1 (some ⟨some 10, true, 5, 1⟩)] = some s ∧ s.conns = [c] ∧ w0.accepts 1 9 = false ∧ ¬ Wanted ⟨some 10, true, 5, 1⟩ c) ∧
    runActs w0 {} [.dial 1 (some ⟨some 11, false, 5, 1⟩)] = none ∧
    established w0 ⟨11, false, none, none⟩ = true := by
  refine ⟨⟨_, _, rfl, rfl, rfl, ?_⟩, rfl, rfl⟩
  rintro ⟨-, -, h⟩
  exact absurd (h rfl).2 (by simp)

/-- No connection the dialer makes is the one a peer of the mesh wants, for any peer and any world. -/
theorem C218_never_false (w : World) (s s' : St) (h : Nat) (p : Peer) (he : exec w s (.dial h (some p)) = some s') :
    ∃ c, s'.conns = s.conns ++ [c] ∧ ¬ Wanted p c := by
  unfold exec at he
  cases hp : plan h (some p) with
  | none => simp only [hp] at he; cases he
  | some c =>
    simp only [hp] at he
    split at he
    · injection he with he; subst he
      refine ⟨c, rfl, ?_⟩
      rintro ⟨-, h2, h3⟩
      unfold plan at hp
      cases ha : p.addr with
      | none => simp only [ha] at hp; cases hp
      | some a =>
        simp only [ha] at hp; injection hp with hp; subst hp
        exact absurd (h3 h2.symm).2 (by simp)
    · cases he

/-- **C218** fails: with two connections calls on the older one are shown to the filters, with the certificates of its peer, as calls on the newer. -/
theorem C218_state_false : ∃ s, runActs w0 {} [.dial 1 (some ⟨some 12, true, 5, 1⟩), .dial 2 (some ⟨some 10, true, 6, 9⟩), .call 0] = some s ∧
    s.calls = [(0, some 1)] ∧ s.conns.map (·.addr) = [12, 10] := ⟨_, rfl, rfl, rfl⟩

end Verif.Props.GrpcDial
