import Verif.Exp.PyReq
/-
Property C259: requests of Python programs are sent as they were made, and answered as the server answered.
-/
namespace Verif.Exp.PyReq
open Verif.Heimdall Verif.Exp.Python

/-- the bytes of a body, if it has them (specification) -/
def Body.content : Body → Bytes
  | .absent => []
  | .bytes b => b
  | .text _ => []

theorem cText_id {b : Bytes} (h : 0 ∉ b) : cText b = b := by
  unfold cText
  induction b with
  | nil => rfl
  | cons x b ih =>
    simp only [List.mem_cons, not_or] at h
    have hx : (decide (x ≠ 0)) = true := by simp only [ne_eq, decide_eq_true_eq]; exact fun e => h.1 e.symm
    rw [List.takeWhile_cons, if_pos hx, ih h.2]

/-- **C259**, for requests without body or with bytes that have no NUL: a request is sent exactly once, with the method, the address and the body it was made with -/
theorem C259_sent_partial (dec : Bytes → Option Str) (net : GoReq → Outcome) (r : Req) (hm : 0 ∉ r.method) (hu : 0 ∉ r.url) (hb : 0 ∉ r.body.content)
    (ht : ∀ s, r.body ≠ .text s) : ∃ g, (send dec net r).1 = some g ∧ g.method = r.method ∧ g.url = r.url ∧ g.body = r.body.content ∧
      (send dec net r).2 = response dec (net g) := by
  obtain ⟨m, u, h, b⟩ := r
  cases b with
  | absent => exact ⟨_, rfl, cText_id hm, cText_id hu, rfl, rfl⟩
  | bytes b => exact ⟨_, rfl, cText_id hm, cText_id hu, cText_id hb, rfl⟩
  | text s => exact absurd rfl (ht s)

/-- **C259** is false of the code: the headers of a request are never sent -/
theorem C259_headers_false (dec : Bytes → Option Str) (net : GoReq → Outcome) (r : Req) (g : GoReq) (h : (send dec net r).1 = some g) : g.headers = [] := by
  obtain ⟨m, u, hd, b⟩ := r
  cases b <;> simp only [send, goRequest] at h <;> cases h <;> rfl

/-- **C259** is false of the code: a request whose body is a text, such as a form, is not sent, and a body is cut at its first NUL -/
theorem C259_text_false (dec : Bytes → Option Str) (net : GoReq → Outcome) (r : Req) :
    (∀ s, r.body = .text s → send dec net r = (none, .error .argument)) ∧
    (∀ a b, 0 ∉ a → r.body = .bytes (a ++ 0 :: b) → ∃ g, (send dec net r).1 = some g ∧ g.body = a) := by
  refine ⟨?_, ?_⟩
  · intro s h; simp only [send, goRequest, h]
  · intro a b ha h
    refine ⟨⟨cText r.method, cText r.url, [], cText (a ++ 0 :: b)⟩, by simp only [send, goRequest, h], ?_⟩
    show cText (a ++ 0 :: b) = a
    have := cText_id ha
    unfold cText at this ⊢
    rw [List.takeWhile_append_of_pos (by
      intro x hx
      simp only [ne_eq, decide_not, Bool.not_eq_eq_eq_not, Bool.not_true, decide_eq_false_iff_not]
      rintro rfl; exact ha hx)]
    simp

theorem decodeHeaders_mem {dec : Bytes → Option Str} : ∀ {l : List (Bytes × List Bytes)} {h : List (Str × Str)}, decodeHeaders dec l = some h →
    l.map (fun e => (dec (cText e.1), dec (cText (joinBytes e.2)))) = h.map (fun e => (some e.1, some e.2)) := by
  intro l
  induction l with
  | nil => intro h hd; simp only [decodeHeaders, Option.some.injEq] at hd; subst hd; rfl
  | cons e l ih =>
    obtain ⟨k, vs⟩ := e
    intro h hd
    rw [decodeHeaders] at hd
    cases h1 : dec (cText k) with
    | none => rw [h1] at hd; cases hd
    | some k' =>
      cases h2 : dec (cText (joinBytes vs)) with
      | none => rw [h1, h2] at hd; cases hd
      | some v' =>
        cases h3 : decodeHeaders dec l with
        | none => rw [h1, h2, h3] at hd; cases hd
        | some l' =>
          rw [h1, h2, h3] at hd
          simp only [Option.some.injEq] at hd
          subst hd
          simp only [List.map_cons, h1, h2, ih h3]

theorem find_reverse {α : Type} {p : α → Bool} {l : List α} {a : α} (hm : a ∈ l) (hp : p a = true) (hu : ∀ b ∈ l, p b = true → b = a) :
    l.reverse.find? p = some a := by
  cases h : l.reverse.find? p with
  | none => rw [List.find?_eq_none] at h; exact absurd hp (h a (by simpa using hm))
  | some b =>
    have := hu b (by simpa using List.mem_of_find?_eq_some h) (List.find?_some h)
    rw [this]

theorem map_mem_pair {α β γ : Type} {f : α → γ} {g : β → γ} : ∀ {l : List α} {h : List β}, l.map f = h.map g → ∀ a ∈ l, ∃ b ∈ h, f a = g b := by
  intro l h he a ha
  have : f a ∈ h.map g := he ▸ List.mem_map_of_mem ha
  obtain ⟨b, hb, e⟩ := List.mem_map.1 this
  exact ⟨b, hb, e.symm⟩

theorem pairwise_ne {α : Type} {R : α → α → Prop} (hs : ∀ a b, R a b → R b a) : ∀ {l : List α}, l.Pairwise R → ∀ a ∈ l, ∀ b ∈ l, a ≠ b → R a b := by
  intro l h
  induction h with
  | nil => intro a ha; cases ha
  | cons h1 _ ih =>
    intro a ha b hb hne
    rcases List.mem_cons.1 ha with rfl | ha' <;> rcases List.mem_cons.1 hb with rfl | hb'
    · exact absurd rfl hne
    · exact h1 b hb'
    · exact hs _ _ (h1 a ha')
    · exact ih a ha' b hb' hne

/-- **C259**, for answers whose body has no NUL and whose headers are UTF-8 with names that differ in more than case: the program gets the status, the body and every
header, with the values it had separated by commas, whatever case it is asked for in -/
theorem C259_answer_partial (dec : Bytes → Option Str) (r : GoResp) (hb : 0 ∉ r.body) {hs : List (Str × Str)} (hd : decodeHeaders dec r.headers = some hs)
    (hn : hs.Pairwise fun a b => a.1.map Wasm.Headers.toLower ≠ b.1.map Wasm.Headers.toLower) :
    ∃ p, response dec (.answer r) = .ok p ∧ p.status = r.status ∧ p.body = r.body ∧ p.reason = none ∧
      (∀ k vs, (k, vs) ∈ r.headers → 0 ∉ k → 0 ∉ joinBytes vs → ∃ name value, dec k = some name ∧ dec (joinBytes vs) = some value ∧
        ∀ name', name'.map Wasm.Headers.toLower = name.map Wasm.Headers.toLower → p.header name' = some value) := by
  refine ⟨⟨r.status, hs, cText r.body, none⟩, by simp only [response, hd], rfl, cText_id hb, rfl, ?_⟩
  intro k vs hk h0 h0'
  obtain ⟨⟨n, v⟩, hm, he⟩ := map_mem_pair (decodeHeaders_mem hd) _ hk
  simp only [Prod.mk.injEq, cText_id h0, cText_id h0'] at he
  refine ⟨n, v, he.1, he.2, ?_⟩
  intro name' hname
  show Option.map _ (hs.reverse.find? _) = some v
  rw [find_reverse hm (by simpa using hname.symm)]
  · rfl
  · intro b hb' hp
    simp only [decide_eq_true_eq] at hp
    have hpe : b.1.map Wasm.Headers.toLower = n.map Wasm.Headers.toLower := hp.trans hname
    apply Classical.byContradiction
    intro hne
    exact pairwise_ne (fun _ _ h => h.symm) hn _ hb' _ hm hne hpe

/-- **C259**: a request that fails is an answer with status 500 and the text of the error as reason; answers of servers have no reason, so that a program can tell them apart -/
theorem C259_failed (dec : Bytes → Option Str) (o : Outcome) (p : PyResp) (h : response dec o = .ok p) :
    (∀ e, o = .failed e → p.status = 500 ∧ p.reason = some e) ∧ (p.reason ≠ none ↔ ∃ e, o = .failed e) := by
  cases o with
  | failed e => simp only [response] at h; cases h; simp
  | answer r =>
    simp only [response] at h
    cases hd : decodeHeaders dec r.headers with
    | none => rw [hd] at h; cases h
    | some hs => rw [hd] at h; cases h; simp

/-- **C259** is false of the code: an answer with a header that is not UTF-8 is an exception: the program gets nothing of it -/
theorem C259_unicode_false (dec : Bytes → Option Str) (k : Bytes) (vs : List Bytes) (hv : dec (cText (joinBytes vs)) = none) (st : Nat) (body : Bytes)
    (l : List (Bytes × List Bytes)) : response dec (.answer ⟨st, (k, vs) :: l, body⟩) = .error .unicode := by
  have : decodeHeaders dec ((k, vs) :: l) = none := by
    rw [decodeHeaders, hv]
    cases dec (cText k) <;> rfl
  simp only [response, this]

/-- ASCII as decoding, for the example -/
def ascii (b : Bytes) : Option Str := if b.all (· < 128) then some (b.map Char.ofNat) else none

/-- a request and its answer that meet the hypotheses (non-vacuity); the header of the request does not arrive -/
example : let r : Req := ⟨[80, 85, 84], [47], [([65], [49])], .bytes [1, 2]⟩
    let p := (send ascii (fun g => .answer ⟨200, [([88, 45, 65], [[49], [50]])], g.body⟩) r)
    p.1 = some ⟨[80, 85, 84], [47], [], [1, 2]⟩ ∧ p.2.toOption.map (fun p => (p.status, p.body, p.header "x-a".toList)) = some (200, [1, 2], some "1,2".toList) := by decide

end Verif.Exp.PyReq
