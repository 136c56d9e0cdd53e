import Verif.Sec.Ca
/-
C69: certificates of the mesh CA.  C70: the self-signed CA.
-/
namespace Verif.Ca

/-! ### Specification -/

/-- What `GetCertificate` returned for a host most recently (newest first trace). -/
def lastReturned (host : String) : List Ev → Option Cert
  | [] => none
  | .returned h _ c _ :: r => if h = host then some c else lastReturned host r
  | _ :: r => lastReturned host r

/-- Every certificate returned for a host was issued in answer to a request for that host. -/
def RightHost (tr : List Ev) : Prop :=
  ∀ pre h ttl c now post, tr = pre ++ .returned h ttl c now :: post → c.host = h ∧ ∃ ttl' now', .asked c.req h ttl' now' ∈ post

/-- A certificate is returned only if it has just been issued or is still valid. -/
def FreshOrValid (tr : List Ev) : Prop :=
  ∀ pre h ttl c now post, tr = pre ++ .returned h ttl c now :: post →
    now < c.notAfter ∨ ∃ post', post = .asked c.req h ttl now :: post'

/-- A request is sent only if the certificate last returned for the host has expired, or none was. -/
def NoNeedlessRequest (tr : List Ev) : Prop :=
  ∀ pre r h ttl now post, tr = pre ++ .asked r h ttl now :: post → ∀ c, lastReturned h post = some c → c.notAfter ≤ now

/-- Requests have different numbers. -/
def OneRequestEach (tr : List Ev) : Prop :=
  ∀ pre r h ttl now post, tr = pre ++ .asked r h ttl now :: post → ∀ h' ttl' now', .asked r h' ttl' now' ∉ post

/-! ### Invariant -/

structure Inv (s : St) : Prop where
  last : ∀ h, find h s.certs = lastReturned h s.trace
  host : ∀ h c, find h s.certs = some c → c.host = h ∧ ∃ ttl now, .asked c.req h ttl now ∈ s.trace
  fresh : ∀ r h ttl now, .asked r h ttl now ∈ s.trace → r < s.reqs
  right : RightHost s.trace
  valid : FreshOrValid s.trace
  need : NoNeedlessRequest s.trace
  each : OneRequestEach s.trace

theorem split_cons {e x : Ev} {tr pre post : List Ev} (h : e :: tr = pre ++ x :: post) :
    (pre = [] ∧ e = x ∧ tr = post) ∨ ∃ pre', pre = e :: pre' ∧ tr = pre' ++ x :: post := by
  cases pre with
  | nil => left; simpa using h
  | cons y ys => right; refine ⟨ys, ?_⟩; simp at h; simp [h]

theorem right_cons {tr : List Ev} {e : Ev} (h : RightHost tr)
    (he : ∀ hh ttl c now, e = .returned hh ttl c now → c.host = hh ∧ ∃ ttl' now', .asked c.req hh ttl' now' ∈ tr) : RightHost (e :: tr) := by
  intro pre hh ttl c now post heq
  rcases split_cons heq with ⟨_, h1, h2⟩ | ⟨pre', _, h2⟩
  · subst h2; exact he hh ttl c now h1
  · exact h pre' hh ttl c now post h2

theorem valid_cons {tr : List Ev} {e : Ev} (h : FreshOrValid tr)
    (he : ∀ hh ttl c now, e = .returned hh ttl c now → now < c.notAfter ∨ ∃ post', tr = .asked c.req hh ttl now :: post') :
    FreshOrValid (e :: tr) := by
  intro pre hh ttl c now post heq
  rcases split_cons heq with ⟨_, h1, h2⟩ | ⟨pre', _, h2⟩
  · subst h2; exact he hh ttl c now h1
  · exact h pre' hh ttl c now post h2

theorem need_cons {tr : List Ev} {e : Ev} (h : NoNeedlessRequest tr)
    (he : ∀ r hh ttl now, e = .asked r hh ttl now → ∀ c, lastReturned hh tr = some c → c.notAfter ≤ now) :
    NoNeedlessRequest (e :: tr) := by
  intro pre r hh ttl now post heq
  rcases split_cons heq with ⟨_, h1, h2⟩ | ⟨pre', _, h2⟩
  · subst h2; exact he r hh ttl now h1
  · exact h pre' r hh ttl now post h2

theorem each_cons {tr : List Ev} {e : Ev} (h : OneRequestEach tr)
    (he : ∀ r hh ttl now, e = .asked r hh ttl now → ∀ h' ttl' now', .asked r h' ttl' now' ∉ tr) : OneRequestEach (e :: tr) := by
  intro pre r hh ttl now post heq
  rcases split_cons heq with ⟨_, h1, h2⟩ | ⟨pre', _, h2⟩
  · subst h2; exact he r hh ttl now h1
  · exact h pre' r hh ttl now post h2

theorem inv_call {s : St} (host : String) (ttl now : Int) (ans : Answer) (h : Inv s) : Inv (getCertificate s host ttl now ans) := by
  obtain ⟨a1, a2, a3, a4, a5, a6, a7⟩ := h
  unfold getCertificate
  cases hf : (find host s.certs).filter (stillValid · now) with
  | some c =>
    simp only
    rw [Option.filter_eq_some_iff] at hf
    obtain ⟨h1, h2⟩ := hf
    simp only [stillValid, decide_eq_true_eq] at h2
    obtain ⟨h3, ttl', now', h4⟩ := a2 host c h1
    refine ⟨?_, ?_, ?_, right_cons a4 ?_, valid_cons a5 ?_, need_cons a6 (by simp), each_cons a7 (by simp)⟩
    · intro k
      simp only [lastReturned]
      split
      · rename_i e; subst e; exact h1
      · exact a1 k
    · intro k d hk
      obtain ⟨x1, t, n, x2⟩ := a2 k d hk
      exact ⟨x1, t, n, List.mem_cons_of_mem _ x2⟩
    · intro r k t n hm
      simp only [List.mem_cons, reduceCtorEq, false_or] at hm
      exact a3 r k t n hm
    · intro hh t d n e
      injection e with e1 e2 e3 e4; subst e1 e2 e3 e4
      exact ⟨h3, ttl', now', h4⟩
    · intro hh t d n e
      injection e with e1 e2 e3 e4; subst e1 e2 e3 e4
      left; omega
  | none =>
    have hexp : ∀ c, find host s.certs = some c → c.notAfter ≤ now := by
      intro c hc
      rw [hc] at hf
      simp only [Option.filter_some, stillValid] at hf
      split at hf
      · cases hf
      · rename_i hn; simp at hn; omega
    have hask : ∀ r hh t n, Ev.asked s.reqs host ttl now = .asked r hh t n → ∀ c, lastReturned hh s.trace = some c → c.notAfter ≤ n := by
      intro r hh t n e c hc
      injection e with e1 e2 e3 e4; subst e2 e4
      rw [← a1] at hc
      exact hexp c hc
    have hea : ∀ r hh t n, Ev.asked s.reqs host ttl now = .asked r hh t n → ∀ h' ttl' now', .asked r h' ttl' now' ∉ s.trace := by
      intro r hh t n e h' t' n' hm
      injection e with e1 e2 e3 e4; subst e1
      have := a3 _ _ _ _ hm
      omega
    cases ans with
    | notSent =>
      refine ⟨fun k => a1 k, ?_, ?_, right_cons a4 (by simp), valid_cons a5 (by simp), need_cons a6 (by simp), each_cons a7 (by simp)⟩
      · intro k d hk
        obtain ⟨x1, t, n, x2⟩ := a2 k d hk
        exact ⟨x1, t, n, List.mem_cons_of_mem _ x2⟩
      · intro r k t n hm
        simp only [List.mem_cons, reduceCtorEq, false_or] at hm
        exact a3 r k t n hm
    | refused =>
      refine ⟨fun k => a1 k, ?_, ?_, right_cons (right_cons a4 (by simp)) (by simp), valid_cons (valid_cons a5 (by simp)) (by simp),
        need_cons (need_cons a6 hask) (by simp), each_cons (each_cons a7 hea) (by simp)⟩
      · intro k d hk
        obtain ⟨x1, t, n, x2⟩ := a2 k d hk
        exact ⟨x1, t, n, List.mem_cons_of_mem _ (List.mem_cons_of_mem _ x2)⟩
      · intro r k t n hm
        simp only [List.mem_cons, reduceCtorEq, false_or, Ev.asked.injEq] at hm
        show r < s.reqs + 1
        rcases hm with ⟨e, _⟩ | hm
        · omega
        · have := a3 r k t n hm; omega
    | signed na =>
      refine ⟨?_, ?_, ?_, right_cons (right_cons a4 (by simp)) ?_, valid_cons (valid_cons a5 (by simp)) ?_,
        need_cons (need_cons a6 hask) (by simp), each_cons (each_cons a7 hea) (by simp)⟩
      · intro k
        simp only [find, lastReturned]
        split
        · rfl
        · exact a1 k
      · intro k d hk
        simp only [find] at hk
        split at hk
        · rename_i e; injection hk with hk; subst e hk
          exact ⟨rfl, ttl, now, by simp⟩
        · obtain ⟨x1, t, n, x2⟩ := a2 k d hk
          exact ⟨x1, t, n, List.mem_cons_of_mem _ (List.mem_cons_of_mem _ x2)⟩
      · intro r k t n hm
        simp only [List.mem_cons, reduceCtorEq, false_or, Ev.asked.injEq] at hm
        show r < s.reqs + 1
        rcases hm with ⟨e, _⟩ | hm
        · omega
        · have := a3 r k t n hm; omega
      · intro hh t d n e
        injection e with e1 e2 e3 e4; subst e1 e2 e3 e4
        exact ⟨rfl, ttl, now, by simp⟩
      · intro hh t d n e
        injection e with e1 e2 e3 e4; subst e1 e2 e3 e4
        exact Or.inr ⟨_, rfl⟩

theorem inv {s : St} (h : Reach s) : Inv s := by
  induction h with
  | init =>
    refine ⟨by simp [find, lastReturned], by simp [find], by simp, ?_, ?_, ?_, ?_⟩ <;> intro _ _ _ _ _ _ h <;> simp at h
  | call host ttl now ans _ ih => exact inv_call host ttl now ans ih

/-- **C69** For every history of calls, hosts, times and answers of the CA: a certificate is returned for
the host it was requested for; it was just issued or is still valid; a new one is requested only
if the last one for that host is no longer valid. -/
theorem C69_certificates {s : St} (h : Reach s) :
    RightHost s.trace ∧ FreshOrValid s.trace ∧ NoNeedlessRequest s.trace ∧ OneRequestEach s.trace := by
  have h := inv h
  exact ⟨h.right, h.valid, h.need, h.each⟩

/-- **C69** A certificate that is still valid is returned to every caller, and nothing is requested. -/
theorem C69_reuse {s : St} (h : Reach s) (host : String) (ttl now : Int) (ans : Answer) (c : Cert)
    (hc : lastReturned host s.trace = some c) (hv : now < c.notAfter) :
    (getCertificate s host ttl now ans).trace = .returned host ttl c now :: s.trace := by
  have hf := (inv h).last host
  unfold getCertificate
  rw [hf, hc]
  simp only [Option.filter_some, stillValid]
  rw [if_pos (by simp; omega)]

/-- **C69** An expired certificate is never returned again: the call asks the CA or fails. -/
theorem C69_expired {s : St} (h : Reach s) (host : String) (ttl now : Int) (ans : Answer)
    (hv : ∀ c, lastReturned host s.trace = some c → c.notAfter ≤ now) :
    (∃ na, ans = .signed na ∧ (getCertificate s host ttl now ans).trace =
      .returned host ttl ⟨s.reqs, host, na⟩ now :: .asked s.reqs host ttl now :: s.trace) ∨
    ((∀ na, ans ≠ .signed na) ∧ ∃ es, (getCertificate s host ttl now ans).trace = .failed host now :: es ∧
      lastReturned host es = lastReturned host s.trace) := by
  have hf := (inv h).last host
  have hn : (find host s.certs).filter (stillValid · now) = none := by
    rw [hf]
    cases hc : lastReturned host s.trace with
    | none => rfl
    | some c =>
      have := hv c hc
      simp only [Option.filter_some, stillValid]
      rw [if_neg (by simp; omega)]
  unfold getCertificate
  rw [hn]
  cases ans with
  | notSent => exact Or.inr ⟨by simp, _, rfl, rfl⟩
  | refused => exact Or.inr ⟨by simp, _, rfl, rfl⟩
  | signed na => exact Or.inl ⟨na, rfl, rfl⟩

/-- **C69** What is not promised: the time to live a caller asks for says nothing about a certificate that
is already there.  Whatever lifetime was asked for, what is left of it may be one nanosecond. -/
theorem C69_ttl_not_honoured (ttl : Int) : ∃ s c now, Reach s ∧ .returned "svc" ttl c now ∈ s.trace ∧ c.notAfter - now = 1 :=
  ⟨_, ⟨0, "svc", 1000⟩, 999, .call "svc" ttl 999 .refused (.call "svc" 1 0 (.signed 1000) .init), List.mem_cons_self, rfl⟩

/-- **C69** The host of the CA's endpoint is never used as its expected name: only what is configured is. -/
theorem C69_endpointSAN (split : String → Except String String) (c : Config) : endpointSAN split c = c.endpointSAN := by
  unfold endpointSAN
  split
  · rename_i h; split <;> simp [h]
  · rfl

/-- A history: issued, reused, expired, issued again. -/
example : ∃ s, Reach s ∧ s.trace = [.returned "a" 10 ⟨1, "a", 200⟩ 150, .asked 1 "a" 10 150, .returned "a" 10 ⟨0, "a", 100⟩ 50,
    .returned "a" 10 ⟨0, "a", 100⟩ 0, .asked 0 "a" 10 0] :=
  ⟨_, .call "a" 10 150 (.signed 200) (.call "a" 10 50 .notSent (.call "a" 10 0 (.signed 100) .init)), by decide⟩

/-! ### The self-signed CA -/

/-- What kind of name a SAN is: a URI has "://", an e-mail address a "@", and an address parses as one. -/
theorem C70_types (isIP : List Char → Bool) (san : List Char) :
    (sanType isIP san = .uri ↔ hasSub [':', '/', '/'] san = true) ∧
    (sanType isIP san = .email ↔ hasSub [':', '/', '/'] san = false ∧ hasSub ['@'] san = true) ∧
    (sanType isIP san = .ip ↔ hasSub [':', '/', '/'] san = false ∧ hasSub ['@'] san = false ∧ isIP san = true) ∧
    (sanType isIP san = .dns ↔ hasSub [':', '/', '/'] san = false ∧ hasSub ['@'] san = false ∧ isIP san = false) := by
  unfold sanType
  cases hasSub [':', '/', '/'] san <;> cases hasSub ['@'] san <;> cases isIP san <;> simp

/-- `strings.Contains` means what it says. -/
theorem hasSub_iff (pat : List Char) : ∀ l : List Char, hasSub pat l = true ↔ ∃ a b, l = a ++ pat ++ b
  | [] => by
    simp only [hasSub, List.isEmpty_iff]
    constructor
    · intro h; subst h; exact ⟨[], [], rfl⟩
    · rintro ⟨a, b, h⟩
      have := congrArg List.length h
      simp at this
      exact List.length_eq_zero_iff.mp (by omega)
  | c :: r => by
    simp only [hasSub, Bool.or_eq_true, List.isPrefixOf_iff_prefix, hasSub_iff pat r]
    constructor
    · rintro (⟨b, h⟩ | ⟨a, b, h⟩)
      · exact ⟨[], b, by simp [h]⟩
      · exact ⟨c :: a, b, by simp [h]⟩
    · rintro ⟨a, b, h⟩
      cases a with
      | nil => exact Or.inl ⟨b, by simpa using h.symm⟩
      | cons x xs =>
        simp only [List.cons_append, List.cons.injEq] at h
        exact Or.inr ⟨xs, b, by rw [h.2]⟩

theorem addSans_spec (isIP url : List Char → Bool) : ∀ (sans : List (List Char)) (t t' : Sans), addSans isIP url t sans = some t' →
    t'.emails = t.emails ++ sans.filter (sanType isIP · = .email) ∧
    t'.ips = t.ips ++ sans.filter (sanType isIP · = .ip) ∧
    t'.dns = t.dns ++ sans.filter (sanType isIP · = .dns) ∧
    t'.uris = (match (sans.filter (sanType isIP · = .uri)).getLast? with | some u => [u] | none => t.uris)
  | [], t, t', h => by simp [addSans] at h; subst h; simp
  | san :: r, t, t', h => by
    unfold addSans at h
    split at h
    · rename_i ht
      split at h
      · obtain ⟨h1, h2, h3, h4⟩ := addSans_spec isIP url r _ _ h
        refine ⟨by simpa [ht] using h1, by simpa [ht] using h2, by simpa [ht] using h3, ?_⟩
        rw [h4]
        simp only [List.filter_cons, ht, decide_true, if_true, List.getLast?_cons]
        cases (r.filter fun x => decide (sanType isIP x = .uri)).getLast? <;> rfl
      · cases h
    all_goals
      rename_i ht
      obtain ⟨h1, h2, h3, h4⟩ := addSans_spec isIP url r _ _ h
      refine ⟨by simpa [ht] using h1, by simpa [ht] using h2, by simpa [ht] using h3, ?_⟩
      rw [h4]
      simp [ht]

/-- **C70** No certificate is issued exactly if one of the SANs is taken for a URI and cannot be parsed as one. -/
theorem C70_unparsable (isIP url : List Char → Bool) : ∀ (sans : List (List Char)) (t : Sans),
    addSans isIP url t sans = none ↔ ∃ san ∈ sans, sanType isIP san = .uri ∧ url san = false
  | [], t => by simp [addSans]
  | san :: r, t => by
    unfold addSans
    cases ht : sanType isIP san with
    | uri =>
      cases hu : url san with
      | true => simp [C70_unparsable isIP url r, hu]
      | false => simp [ht, hu]
    | email => simp [C70_unparsable isIP url r, ht]
    | ip => simp [C70_unparsable isIP url r, ht]
    | dns => simp [C70_unparsable isIP url r, ht]

/-- **C70** (partial) Every SAN asked for is in the certificate, in the list of its kind and in order, as
long as at most one of them is a URI. -/
theorem C70_sans_partial (isIP url : List Char → Bool) (sans : List (List Char)) (t : Sans)
    (h : addSans isIP url {} sans = some t) (h1 : (sans.filter (sanType isIP · = .uri)).length ≤ 1) :
    t.emails = sans.filter (sanType isIP · = .email) ∧ t.ips = sans.filter (sanType isIP · = .ip) ∧
    t.dns = sans.filter (sanType isIP · = .dns) ∧ t.uris = sans.filter (sanType isIP · = .uri) := by
  obtain ⟨a1, a2, a3, a4⟩ := addSans_spec isIP url sans {} t h
  refine ⟨by simpa using a1, by simpa using a2, by simpa using a3, ?_⟩
  rw [a4]
  generalize sans.filter _ = l at h1 ⊢
  match l, h1 with
  | [], _ => rfl
  | [x], _ => rfl
  | x :: y :: r, h1 => simp at h1

/-- **C70 refuted**: of several URI SANs only the last is in the certificate. -/
theorem C70_uris_false : ∃ (isIP url : List Char → Bool) (sans : List (List Char)) (t : Sans), addSans isIP url {} sans = some t ∧
    ['a', ':', '/', '/', 'b'] ∈ sans ∧ sanType isIP ['a', ':', '/', '/', 'b'] = .uri ∧ ['a', ':', '/', '/', 'b'] ∉ t.uris :=
  ⟨fun _ => false, fun _ => true, [['a', ':', '/', '/', 'b'], ['a', ':', '/', '/', 'c']], _, rfl, by decide, by decide, by decide⟩

example : ∃ t, addSans (fun s => s == ['1']) (fun _ => true) {} [['1'], ['x'], ['a', '@', 'b'], ['s', ':', '/', '/', 'c'], ['y']] = some t ∧
    t = ⟨[['s', ':', '/', '/', 'c']], [['a', '@', 'b']], [['1']], [['x'], ['y']]⟩ := ⟨_, rfl, by decide⟩

/-- Certificates are made one after the other. -/
def OneByOne (s : Ser) : SAct → Prop
  | .add _ => s.waiting = []
  | .load _ => True

/-- The serial numbers handed out. -/
def serials (s : Ser) : List Nat := s.out.map (·.2)

/-- **C70** (partial) Certificates made one after the other get the serial numbers 1, 2, 3, …: all different. -/
theorem C70_serial_partial {s : Ser} (h : SReach OneByOne s) :
    serials s = ((List.range s.out.length).map (· + 1)).reverse ∧ (serials s).Nodup := by
  have key : serials s = ((List.range s.out.length).map (· + 1)).reverse ∧ s.serial = s.out.length + s.waiting.length ∧ s.waiting.length ≤ 1 := by
    induction h with
    | init => exact ⟨rfl, rfl, by simp⟩
    | @step s s' a _ hg he ih =>
      obtain ⟨h1, h2, h3⟩ := ih
      cases a with
      | add t =>
        simp only [sexec] at he
        split at he
        · cases he
        · injection he with he; subst he
          simp only [OneByOne] at hg
          refine ⟨h1, ?_, ?_⟩
          · show s.serial + 1 = s.out.length + (t :: s.waiting).length
            simp only [List.length_cons]; omega
          · show (t :: s.waiting).length ≤ 1
            rw [hg]; simp
      | load t =>
        simp only [sexec] at he
        split at he
        · rename_i hm
          injection he with he; subst he
          have hw : (s.waiting.erase t).length = s.waiting.length - 1 := List.length_erase_of_mem hm
          have hpos : 0 < s.waiting.length := List.length_pos_of_mem hm
          refine ⟨?_, ?_, ?_⟩
          · show s.serial :: serials s = ((List.range (s.out.length + 1)).map (· + 1)).reverse
            rw [List.range_succ, List.map_append, List.reverse_append, ← h1, h2]
            simp; omega
          · show s.serial = ((t, s.serial) :: s.out).length + (s.waiting.erase t).length
            rw [hw]; simp only [List.length_cons]; omega
          · show (s.waiting.erase t).length ≤ 1
            omega
        · cases he
  refine ⟨key.1, ?_⟩
  rw [key.1]
  refine (List.reverse_perm _).nodup_iff.mpr ?_
  refine List.Pairwise.map (R := (· ≠ ·)) _ (fun a b h => ?_) List.nodup_range
  omega

/-- **C70 refuted** for certificates made at the same time: the serial number is increased and read in two
steps, so that two certificates of one CA get the same one. -/
theorem C70_serial_false : ∃ s, SReach (fun _ _ => True) s ∧ serials s = [2, 2] :=
  ⟨_, .step (a := .load 1) (.step (a := .load 0) (.step (a := .add 1) (.step (a := .add 0) .init trivial rfl) trivial rfl) trivial rfl) trivial rfl, rfl⟩

example : ∃ s, SReach OneByOne s ∧ serials s = [2, 1] :=
  ⟨_, .step (a := .load 1) (.step (a := .add 1) (.step (a := .load 0) (.step (a := .add 0) .init rfl rfl) trivial rfl) rfl rfl) trivial rfl, rfl⟩

/-- **C70 refuted** for the options: whatever is asked for, the root certificate has the same subject and
key size, because it is made before the options are applied. -/
theorem C70_options_false (opts : List COpt) : (newClient opts).rootSubject = "ACME CA" ∧ (newClient opts).rootKeySize = 2048 := by
  unfold newClient
  have : ∀ (l : List COpt) (c : Client), (l.foldl COpt.apply c).rootSubject = c.rootSubject ∧ (l.foldl COpt.apply c).rootKeySize = c.rootKeySize := by
    intro l
    induction l with
    | nil => intro c; exact ⟨rfl, rfl⟩
    | cons o r ih =>
      intro c
      obtain ⟨h1, h2⟩ := ih (o.apply c)
      exact ⟨h1.trans (by cases o <;> rfl), h2.trans (by cases o <;> rfl)⟩
  exact this opts (createRoot {})

end Verif.Ca
