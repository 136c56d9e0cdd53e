import Verif.Bifrost.Endpoints
/-
C106, C107: endpoints of services behind the tunnel.
-/
namespace Verif.Props.Bifrost
open Verif Verif.Heimdall Verif.Bifrost

/-! ### C106 -/

/-- the service port is directed to this port of the workload -/
def Targets (q : SvcPort) (p : PortConfig) : Prop := q.target = .str p.name ∨ q.target = .int p.targetPort

/-- a port of a workload with a name, which is not the reserved one, and a number -/
def Named (p : PortConfig) : Prop := p.name ≠ [] ∧ p.name ≠ metrics ∧ p.targetPort ≠ 0
/-- names of target ports are not numbers (Kubernetes demands a letter) -/
def GoodTarget (q : SvcPort) : Prop := ∀ s, q.target = .str s → atoi s = 0

theorem svcPortName_first (p : PortConfig) (hp : Named p) (pre : List SvcPort) (q : SvcPort) (post : List SvcPort)
    (hpre : ∀ x ∈ pre, ¬ Targets x p ∧ GoodTarget x) (hq : Targets q p) : svcPortName p (pre ++ q :: post) = some q.name := by
  induction pre with
  | nil =>
    simp only [List.nil_append, svcPortName]
    rw [if_neg hp.2.1, if_pos]
    rcases hq with h | h
    · exact .inl (by rw [h]; rfl)
    · exact .inr (by rw [h]; rfl)
  | cons x pre ih =>
    simp only [List.cons_append, svcPortName]
    rw [if_neg hp.2.1, if_neg]
    · exact ih (fun y hy => hpre y (by simp [hy]))
    · obtain ⟨hn, hg⟩ := hpre x (by simp)
      cases ht : x.target with
      | int n =>
        rintro (h | h)
        · exact hp.1 h.symm
        · exact hn (.inr (by rw [ht]; exact congrArg _ h))
      | str s =>
        rintro (h | h)
        · exact hn (.inl (by rw [ht]; exact congrArg _ h))
        · have h0 := hg s ht
          simp only [Target.intValue] at h
          rw [h0] at h
          exact hp.2.2 h.symm

theorem svcPortName_none (p : PortConfig) (hp : Named p) (l : List SvcPort) (h : ∀ x ∈ l, ¬ Targets x p ∧ GoodTarget x) :
    svcPortName p l = none := by
  induction l with
  | nil => simp only [svcPortName]; rw [if_neg hp.2.1]
  | cons x l ih =>
    simp only [svcPortName]
    rw [if_neg hp.2.1, if_neg]
    · exact ih (fun y hy => h y (by simp [hy]))
    · obtain ⟨hn, hg⟩ := h x (by simp)
      cases ht : x.target with
      | int n =>
        rintro (h | h)
        · exact hp.1 h.symm
        · exact hn (.inr (by rw [ht]; exact congrArg _ h))
      | str s =>
        rintro (h | h)
        · exact hn (.inl (by rw [ht]; exact congrArg _ h))
        · have h0 := hg s ht
          simp only [Target.intValue] at h
          rw [h0] at h
          exact hp.2.2 h.symm

/-- what a port contributes -/
def published (svc : List SvcPort) (p : PortConfig) : Option (Str × Nat) :=
  if p.addressOk then (svcPortName p svc).map fun n => (n, p.port) else none

theorem foldl_addPort (svc : List SvcPort) (ports : List PortConfig) (s : Subset) :
    (ports.foldl (addPort svc) s).ports = s.ports ++ ports.filterMap (published svc) := by
  induction ports generalizing s with
  | nil => simp
  | cons p ports ih =>
    simp only [List.foldl_cons, ih]
    unfold addPort
    cases hn : svcPortName p svc with
    | none =>
      rw [List.filterMap_cons_none]
      simp [published, hn]
    | some n =>
      simp only
      cases ha : p.addressOk with
      | false =>
        rw [if_pos rfl, List.filterMap_cons_none]
        simp [published, ha]
      | true =>
        rw [if_neg (by simp), List.filterMap_cons_some (b := (n, p.port)) (by simp [published, hn, ha])]
        simp

/-- the address of every published port is in the subset, and no other -/
theorem foldl_addresses (svc : List SvcPort) (ports : List PortConfig) (s : Subset) (ip : Nat) :
    ip ∈ (ports.foldl (addPort svc) s).addresses ↔
      ip ∈ s.addresses ∨ ∃ p ∈ ports, (published svc p).isSome ∧ p.ip = ip := by
  induction ports generalizing s with
  | nil => simp
  | cons p ports ih =>
    simp only [List.foldl_cons, ih, List.mem_cons]
    have key : ip ∈ (addPort svc s p).addresses ↔ ip ∈ s.addresses ∨ ((published svc p).isSome ∧ p.ip = ip) := by
      unfold addPort
      cases hn : svcPortName p svc with
      | none => simp [published, hn]
      | some n =>
        simp only
        cases ha : p.addressOk with
        | false => simp [published, ha]
        | true =>
          rw [if_neg (by simp)]
          simp only [published, hn, ha, if_true, Option.map_some, Option.isSome_some, true_and]
          by_cases hm : p.ip ∈ s.addresses
          · rw [if_pos hm]
            exact ⟨.inl, fun h => h.elim id (fun h => h ▸ hm)⟩
          · rw [if_neg hm, List.mem_append, List.mem_singleton]
            exact ⟨fun h => h.imp id Eq.symm, fun h => h.imp id Eq.symm⟩
    rw [key]
    constructor
    · rintro ((h | h) | ⟨q, hq, h⟩)
      · exact .inl h
      · exact .inr ⟨p, .inl rfl, h⟩
      · exact .inr ⟨q, .inr hq, h⟩
    · rintro (h | ⟨q, rfl | hq, h⟩)
      · exact .inl (.inl h)
      · exact .inl (.inr h)
      · exact .inr ⟨q, hq, h⟩

/-- **C106** For workloads that name their ports: the subset lists exactly the ports the service is directed to, each under the
name of the first service port that is, and with the addresses of the servers where these ports are. -/
theorem C106_published (ports : List PortConfig) (svc : List SvcPort) (hp : ∀ p ∈ ports, Named p) (hs : ∀ q ∈ svc, GoodTarget q) :
    (∀ n port, (n, port) ∈ (getSubset ports svc).ports ↔ ∃ p ∈ ports, p.addressOk = true ∧ p.port = port ∧
      ∃ pre q post, svc = pre ++ q :: post ∧ Targets q p ∧ (∀ x ∈ pre, ¬ Targets x p) ∧ n = q.name) ∧
    (∀ ip, ip ∈ (getSubset ports svc).addresses ↔ ∃ p ∈ ports, p.ip = ip ∧ p.addressOk = true ∧ ∃ q ∈ svc, Targets q p) := by
  have decT : ∀ p, (∃ q ∈ svc, Targets q p) → ∃ pre q post, svc = pre ++ q :: post ∧ Targets q p ∧ (∀ x ∈ pre, ¬ Targets x p) := by
    intro p
    clear hs
    induction svc with
    | nil => rintro ⟨q, hq, _⟩; cases hq
    | cons x l ih =>
      rintro ⟨q, hq, ht⟩
      by_cases hx : Targets x p
      · exact ⟨[], x, l, rfl, hx, by simp⟩
      · have : ∃ q ∈ l, Targets q p := by
          rcases List.mem_cons.mp hq with rfl | hq
          · exact absurd ht hx
          · exact ⟨q, hq, ht⟩
        obtain ⟨pre, q', post, h1, h2, h3⟩ := ih this
        refine ⟨x :: pre, q', post, by rw [h1]; rfl, h2, ?_⟩
        intro y hy; rcases List.mem_cons.mp hy with rfl | hy
        · exact hx
        · exact h3 y hy
  have P : ∀ p ∈ ports, ∀ n, svcPortName p svc = some n ↔
      ∃ pre q post, svc = pre ++ q :: post ∧ Targets q p ∧ (∀ x ∈ pre, ¬ Targets x p) ∧ n = q.name := by
    intro p hpm n
    by_cases hex : ∃ q ∈ svc, Targets q p
    · obtain ⟨pre, q, post, h1, h2, h3⟩ := decT p hex
      have := svcPortName_first p (hp p hpm) pre q post (fun x hx => ⟨h3 x hx, hs x (by rw [h1]; simp [hx])⟩) h2
      rw [← h1] at this
      constructor
      · intro h
        rw [this] at h; injection h with h
        exact ⟨pre, q, post, h1, h2, h3, h.symm⟩
      · rintro ⟨pre', q', post', g1, g2, g3, g4⟩
        have := svcPortName_first p (hp p hpm) pre' q' post' (fun x hx => ⟨g3 x hx, hs x (by rw [g1]; simp [hx])⟩) g2
        rw [← g1] at this
        rw [this, g4]
    · have := svcPortName_none p (hp p hpm) svc (fun x hx => ⟨fun ht => hex ⟨x, hx, ht⟩, hs x hx⟩)
      rw [this]
      constructor
      · intro h; cases h
      · rintro ⟨pre, q, post, g1, g2, _, _⟩
        exact absurd ⟨q, by rw [g1]; simp, g2⟩ hex
  refine ⟨?_, ?_⟩
  · intro n port
    unfold getSubset
    rw [foldl_addPort]
    simp only [List.nil_append, List.mem_filterMap]
    constructor
    · rintro ⟨p, hpm, h⟩
      unfold published at h
      split at h
      · rename_i ha
        cases hn : svcPortName p svc with
        | none => rw [hn] at h; cases h
        | some m =>
          rw [hn] at h
          injection h with h; injection h with h1 h2; subst h1 h2
          exact ⟨p, hpm, ha, rfl, (P p hpm m).mp hn⟩
      · cases h
    · rintro ⟨p, hpm, ha, rfl, hx⟩
      refine ⟨p, hpm, ?_⟩
      unfold published
      rw [if_pos ha, (P p hpm n).mpr hx]; rfl
  · intro ip
    unfold getSubset
    rw [foldl_addresses]
    simp only [List.not_mem_nil, false_or]
    constructor
    · rintro ⟨p, hpm, h, rfl⟩
      unfold published at h
      split at h
      · rename_i ha
        cases hn : svcPortName p svc with
        | none => rw [hn] at h; cases h
        | some m =>
          obtain ⟨pre, q, post, g1, g2, _⟩ := (P p hpm m).mp hn
          exact ⟨p, hpm, rfl, ha, q, by rw [g1]; simp, g2⟩
      · cases h
    · rintro ⟨p, hpm, rfl, ha, hq⟩
      obtain ⟨pre, q, post, h1, h2, h3⟩ := decT p hq
      refine ⟨p, hpm, ?_, rfl⟩
      unfold published
      rw [if_pos ha, (P p hpm q.name).mpr ⟨pre, q, post, h1, h2, h3, rfl⟩]; rfl

/-- **C204 is false of the code**: a port without name is published under the first service port with a numeric target, whatever the
number: here the port 9090 of the workload receives the traffic of port `web`, which is directed to 8080. -/
theorem C204_unnamed_false : getSubset [{ port := 30001, targetPort := 9090, svcName := "s".toList, svcNs := "n".toList, ip := 7 }]
    [⟨"web".toList, .int 8080⟩, ⟨"admin".toList, .int 9090⟩] = ⟨[7], [("web".toList, 30001)]⟩ := by decide +kernel

example : Named { name := "http".toList, port := 30001, targetPort := 8080, svcName := "s".toList, svcNs := "n".toList } ∧
    getSubset [{ name := "http".toList, port := 30001, targetPort := 8080, svcName := "s".toList, svcNs := "n".toList, ip := 7 }]
    [⟨"web".toList, .int 80⟩, ⟨"x".toList, .str "http".toList⟩] = ⟨[7], [("x".toList, 30001)]⟩ := by
  refine ⟨⟨by decide, by decide, by decide⟩, by decide +kernel⟩

/-! ### C107 -/

/-- The key of a service names it again (service names have no dot). -/
theorem C107_key (name ns : Str) (h : '.' ∉ name) : parseSvc (svcString name ns) = some (name, ns) := by
  unfold parseSvc svcString
  rw [split2_append _ _ _ h]

/-- **C205** (partial) If every service in use can be read, its endpoints are acceptable and writing succeeds, exactly the services in
use have managed endpoints afterwards, one subset per session. -/
theorem C205_exact_partial (c : Cluster) (services : Services) (before : List (Str × List Subset))
    (h : ∀ s ∈ services, ∃ ports, c.svc s.1 = some ports ∧ valid (s.2.map fun x => getSubset x.2 ports) = true ∧ c.writeFails s.1 = false) :
    (reconcile c services before).map (·.1) = services.map (·.1) ∧
    ∀ s ∈ services, ∃ ports, c.svc s.1 = some ports ∧ (s.1, s.2.map fun x => getSubset x.2 ports) ∈ reconcile c services before := by
  have D : ∀ s ∈ services, ∃ ports, c.svc s.1 = some ports ∧ desired c s = some (s.1, s.2.map fun x => getSubset x.2 ports) := by
    intro s hs
    obtain ⟨ports, h1, h2, h3⟩ := h s hs
    refine ⟨ports, h1, ?_⟩
    unfold desired
    rw [h1]
    simp only
    rw [if_pos ⟨h2, h3⟩]
  refine ⟨?_, ?_⟩
  · unfold reconcile
    clear h
    induction services with
    | nil => rfl
    | cons s l ih =>
      obtain ⟨ports, _, hd⟩ := D s (by simp)
      rw [List.filterMap_cons_some hd]
      simp only [List.map_cons]
      rw [ih (fun s' hs' => D s' (by simp [hs']))]
  · intro s hs
    obtain ⟨ports, h1, hd⟩ := D s hs
    exact ⟨ports, h1, List.mem_filterMap.mpr ⟨s, hs, hd⟩⟩

/-- **C107** Whatever fails, only services in use get endpoints, and endpoints of services no longer in use are gone. -/
theorem C107_only_used (c : Cluster) (services : Services) (before : List (Str × List Subset)) :
    ∀ e ∈ reconcile c services before, ∃ s ∈ services, s.1 = e.1 ∧ ∃ ports, c.svc s.1 = some ports ∧
      e.2 = s.2.map fun x => getSubset x.2 ports := by
  intro e he
  obtain ⟨s, hs, hd⟩ := List.mem_filterMap.mp he
  unfold desired at hd
  cases hc : c.svc s.1 with
  | none => rw [hc] at hd; cases hd
  | some ports =>
    rw [hc] at hd
    simp only at hd
    split at hd
    · injection hd with hd; subst hd
      exact ⟨s, hs, rfl, ports, hc, rfl⟩
    · cases hd

/-- every session and port of a service in use is found, under its service -/
theorem addSession_mem (m : Sessions) (sid : Str) (p : PortConfig) : ∃ ps, (sid, ps) ∈ addSession m sid (some p) ∧ p ∈ ps := by
  induction m with
  | nil => exact ⟨[p], by simp [addSession], by simp⟩
  | cons x m ih =>
    obtain ⟨k, ps⟩ := x
    simp only [addSession]
    by_cases h : k = sid
    · subst h; rw [if_pos rfl]; exact ⟨ps ++ [p], by simp, by simp⟩
    · rw [if_neg h]; obtain ⟨ps', h1, h2⟩ := ih; exact ⟨ps', List.mem_cons_of_mem _ h1, h2⟩

/-- **C205 is false of the code**: if reading a service fails once, its endpoints are deleted; -/
theorem C205_transient_false : ∃ (c c' : Cluster) (services : Services), reconcile c services [] ≠ [] ∧
    c'.svc "b.n".toList = c.svc "b.n".toList ∧ (∃ e ∈ reconcile c services [], e.1 = "a.n".toList) ∧
    ∀ e ∈ reconcile c' services (reconcile c services []), e.1 ≠ "a.n".toList := by
  refine ⟨⟨fun _ => some [⟨"web".toList, .int 80⟩], fun _ => false⟩,
    ⟨fun s => if s = "a.n".toList then none else some [⟨"web".toList, .int 80⟩], fun _ => false⟩,
    [("a.n".toList, [("s1".toList, [{ name := "p".toList, port := 1, targetPort := 80, svcName := "a".toList, svcNs := "n".toList, ip := 7 }])]),
     ("b.n".toList, [("s1".toList, [{ name := "p".toList, port := 2, targetPort := 80, svcName := "b".toList, svcNs := "n".toList, ip := 7 }])])],
    ?_, ?_, ?_, ?_⟩ <;> decide +kernel

/-- a second client whose port the service does not know makes the API server reject the update, and the endpoints the service had are
deleted. -/
theorem C205_rejected_false : ∃ (c : Cluster) (good bad : Sessions),
    reconcile c [("a.n".toList, good)] [] = [("a.n".toList, [⟨[7], [("web".toList, 1)]⟩])] ∧
    reconcile c [("a.n".toList, good ++ bad)] (reconcile c [("a.n".toList, good)] []) = [] :=
  ⟨⟨fun _ => some [⟨"web".toList, .int 80⟩], fun _ => false⟩,
    [("s1".toList, [{ name := "p".toList, port := 1, targetPort := 80, svcName := "a".toList, svcNs := "n".toList, ip := 7 }])],
    [("s2".toList, [{ name := "q".toList, port := 2, targetPort := 81, svcName := "a".toList, svcNs := "n".toList, ip := 7 }])],
    by decide +kernel, by decide +kernel⟩

/-- the entry of a service in the collection -/
theorem addService_mem (m : Services) (svc sid : Str) (p : PortConfig) :
    ∃ ss ps, (svc, ss) ∈ addService m svc sid (some p) ∧ (sid, ps) ∈ ss ∧ p ∈ ps := by
  induction m with
  | nil => obtain ⟨ps, h1, h2⟩ := addSession_mem [] sid p; exact ⟨_, ps, by simp [addService], h1, h2⟩
  | cons x m ih =>
    obtain ⟨k, ss⟩ := x
    simp only [addService]
    by_cases h : k = svc
    · subst h; rw [if_pos rfl]
      obtain ⟨ps, h1, h2⟩ := addSession_mem ss sid p
      exact ⟨_, ps, by simp, h1, h2⟩
    · rw [if_neg h]; obtain ⟨ss', ps, h1, h2⟩ := ih; exact ⟨ss', ps, List.mem_cons_of_mem _ h1, h2⟩

/-- nothing collected gets lost by later additions -/
def Has (m : Services) (svc sid : Str) (p : PortConfig) : Prop := ∃ ss ps, (svc, ss) ∈ m ∧ (sid, ps) ∈ ss ∧ p ∈ ps

theorem has_addService {m : Services} {svc sid : Str} {p : PortConfig} (svc' sid' : Str) (q : Option PortConfig) (h : Has m svc sid p) :
    Has (addService m svc' sid' q) svc sid p := by
  obtain ⟨ss, ps, h1, h2, h3⟩ := h
  have S : ∀ (l : Sessions), (sid, ps) ∈ l → ∃ ps', (sid, ps') ∈ addSession l sid' q ∧ p ∈ ps' := by
    intro l
    induction l with
    | nil => intro h; cases h
    | cons x l ih =>
      intro hm
      obtain ⟨k, xs⟩ := x
      simp only [addSession]
      by_cases hk : k = sid'
      · rw [if_pos hk]
        rcases List.mem_cons.mp hm with he | he
        · injection he with e1 e2; subst e1 e2
          exact ⟨_, .head _, List.mem_append_left _ h3⟩
        · exact ⟨ps, List.mem_cons_of_mem _ he, h3⟩
      · rw [if_neg hk]
        rcases List.mem_cons.mp hm with he | he
        · exact ⟨ps, by rw [he]; simp, h3⟩
        · obtain ⟨ps', g1, g2⟩ := ih he; exact ⟨ps', List.mem_cons_of_mem _ g1, g2⟩
  induction m with
  | nil => cases h1
  | cons x m ih =>
    obtain ⟨k, xs⟩ := x
    simp only [addService]
    by_cases hk : k = svc'
    · rw [if_pos hk]
      rcases List.mem_cons.mp h1 with he | he
      · injection he with e1 e2; subst e1 e2
        obtain ⟨ps', g1, g2⟩ := S _ h2
        exact ⟨_, ps', .head _, g1, g2⟩
      · exact ⟨ss, ps, List.mem_cons_of_mem _ he, h2, h3⟩
    · rw [if_neg hk]
      rcases List.mem_cons.mp h1 with he | he
      · exact ⟨ss, ps, by rw [he]; simp, h2, h3⟩
      · obtain ⟨ss', ps', g1, g2, g3⟩ := ih he; exact ⟨ss', ps', List.mem_cons_of_mem _ g1, g2, g3⟩

theorem has_collectPort {m : Services} {svc sid : Str} {p : PortConfig} (ip : Nat) (sid' : Str) (q : PortConfig) (h : Has m svc sid p) :
    Has (collectPort ip sid' m q) svc sid p := by
  unfold collectPort; split
  · exact h
  · exact has_addService _ _ _ h

theorem has_ports {svc sid : Str} {p : PortConfig} (ip : Nat) (sid' : Str) (l : List PortConfig) (m : Services) (h : Has m svc sid p) :
    Has (l.foldl (collectPort ip sid') m) svc sid p := by
  induction l generalizing m with
  | nil => exact h
  | cons q l ih => exact ih _ (has_collectPort ip sid' q h)

theorem has_sessions {svc sid : Str} {p : PortConfig} (ip : Nat) (l : Sessions) (m : Services) (h : Has m svc sid p) :
    Has (l.foldl (fun m s => s.2.foldl (collectPort ip s.1) m) m) svc sid p := by
  induction l generalizing m with
  | nil => exact h
  | cons q l ih => exact ih _ (has_ports ip _ _ _ h)

/-- **C107** Every port of every session of every tunnel server that names a service is collected under that service, with the
address of its server. -/
theorem C107_collected (cms : List (Nat × Sessions)) (ip : Nat) (ss : Sessions) (sid : Str) (ps : List PortConfig) (p : PortConfig)
    (h1 : (ip, ss) ∈ cms) (h2 : (sid, ps) ∈ ss) (h3 : p ∈ ps) (hn : p.svcName ≠ []) (hs : p.svcNs ≠ []) (ha : p.addressOk = true) :
    Has (collect cms) (svcString p.svcName p.svcNs) sid { p with ip := ip } := by
  have L1 : ∀ (l : List PortConfig) (m : Services), p ∈ l → Has (l.foldl (collectPort ip sid) m) (svcString p.svcName p.svcNs) sid { p with ip := ip } := by
    intro l
    induction l with
    | nil => intro m h; cases h
    | cons q l ih =>
      intro m hm
      rcases List.mem_cons.mp hm with rfl | hm
      · refine has_ports ip sid l _ ?_
        unfold collectPort
        rw [if_neg (by rintro (h | h); exact hn h; exact hs h), if_pos ha]
        exact addService_mem m _ sid _
      · exact ih _ hm
  have L2 : ∀ (l : Sessions) (m : Services), (sid, ps) ∈ l →
      Has (l.foldl (fun m s => s.2.foldl (collectPort ip s.1) m) m) (svcString p.svcName p.svcNs) sid { p with ip := ip } := by
    intro l
    induction l with
    | nil => intro m h; cases h
    | cons q l ih =>
      intro m hm
      rcases List.mem_cons.mp hm with rfl | hm
      · exact has_sessions ip l _ (L1 ps m h3)
      · exact ih _ hm
  unfold collect
  have L3 : ∀ (l : List (Nat × Sessions)) (m : Services), (ip, ss) ∈ l →
      Has (l.foldl (fun m cm => cm.2.foldl (fun m s => s.2.foldl (collectPort cm.1 s.1) m) m) m) (svcString p.svcName p.svcNs) sid { p with ip := ip } := by
    intro l
    induction l with
    | nil => intro m h; cases h
    | cons q l ih =>
      intro m hm
      rcases List.mem_cons.mp hm with rfl | hm
      · have hh := L2 ss m h2
        clear ih hm
        generalize ss.foldl (fun m s => s.2.foldl (collectPort ip s.1) m) m = m' at hh
        show Has (l.foldl (fun m cm => cm.2.foldl (fun m s => s.2.foldl (collectPort cm.1 s.1) m) m) _) _ _ _
        have gen : ∀ (l : List (Nat × Sessions)) (m : Services), Has m (svcString p.svcName p.svcNs) sid { p with ip := ip } →
            Has (l.foldl (fun m cm => cm.2.foldl (fun m s => s.2.foldl (collectPort cm.1 s.1) m) m) m) (svcString p.svcName p.svcNs) sid { p with ip := ip } := by
          intro l
          induction l with
          | nil => intro m h; exact h
          | cons q l ih => intro m h; exact ih _ (has_sessions q.1 q.2 m h)
        exact gen l _ (L2 ss m h2)
      · exact ih _ hm
  exact L3 cms [] h1

end Verif.Props.Bifrost
