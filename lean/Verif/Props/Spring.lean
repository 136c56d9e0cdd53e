import Verif.Exp.Spring
import Verif.Props.WasmHeaders
/-
Properties C257 and C258: the requests Spring programs see and the responses they send.
-/
namespace Verif.Exp.Spring
open Verif.Heimdall Verif.Wasm.Headers Verif.Props.WasmHeaders

/-! ### C257 -/

theorem bytes_fin : ∀ n, n < 256 → toByte (signed (UInt8.ofNat n)) = UInt8.ofNat n ∧ (signed (UInt8.ofNat n) = -1 ↔ UInt8.ofNat n = 255) := by decide +kernel

theorem toByte_signed (b : UInt8) : toByte (signed b) = b := by
  have := (bytes_fin b.toNat (UInt8.toNat_lt b)).1
  rwa [UInt8.ofNat_toNat] at this

theorem signed_neg (b : UInt8) : signed b = -1 ↔ b = 255 := by
  have := (bytes_fin b.toNat (UInt8.toNat_lt b)).2
  rwa [UInt8.ofNat_toNat] at this

theorem read1_cons {e : End} {b : UInt8} {r : Bytes} (h : e ≠ .together ∨ r ≠ []) : read1 e (b :: r) = (some (signed b), r) := by
  cases r with
  | nil => simp only [ne_eq, not_true_eq_false, or_false] at h; simp [read1, h]
  | cons c r => rfl

theorem readMore_cons {e : End} {n : Nat} {b : UInt8} {r : Bytes} (h : e ≠ .together ∨ r ≠ []) (hb : b ≠ 255) :
    readMore e (n + 1) (b :: r) = (b :: (readMore e n r).1, (readMore e n r).2) := by
  rw [readMore, read1_cons h]
  simp only [(signed_neg b), hb, if_false, toByte_signed]

theorem readBuf_cons {e : End} {n : Nat} {b : UInt8} {r : Bytes} (h : e ≠ .together ∨ r ≠ []) (hb : b ≠ 255) :
    readBuf e n (b :: r) = .bytes (b :: (readMore e n r).1) (readMore e n r).2 := by
  rw [readBuf, read1_cons h]
  simp only [(signed_neg b), hb, if_false, toByte_signed]

theorem readMore_plain {e : End} (he : e ≠ .together) : ∀ (n : Nat) (s : Bytes), 255 ∉ s → readMore e n s = (s.take n, s.drop n) := by
  intro n
  induction n with
  | zero => intro s _; simp [readMore]
  | succ n ih =>
    intro s hs
    cases s with
    | nil => cases e <;> simp [readMore, read1]
    | cons b r =>
      simp only [List.mem_cons, not_or] at hs
      rw [readMore_cons (.inl he) (fun h => hs.1 h.symm), ih r hs.2]
      simp

theorem readAll_plain {e : End} (he : e ≠ .together) (n : Nat) : ∀ (fuel : Nat) (s : Bytes), s.length < fuel → 255 ∉ s →
    readAll e n fuel s = (s, decide (e ≠ .fail)) := by
  intro fuel
  induction fuel with
  | zero => intro s h _; omega
  | succ fuel ih =>
    intro s h hs
    cases s with
    | nil => cases e <;> simp_all [readAll, readBuf, read1]
    | cons b r =>
      simp only [List.mem_cons, not_or] at hs
      simp only [readAll, readBuf_cons (.inl he) (fun h => hs.1 h.symm), readMore_plain he n r hs.2]
      rw [ih (r.drop n) (by simp only [List.length_drop, List.length_cons] at *; omega) (fun hm => hs.2 (List.mem_of_mem_drop hm))]
      simp

/-- **C257**, for bodies without the byte 255 whose end does not come with the last byte: the program gets the whole body, and learns whether it ended well or failed -/
theorem C257_body_partial (s : Bytes) (h : 255 ∉ s) : getBody .alone s = (s, true) ∧ getBody .fail s = (s, false) :=
  ⟨readAll_plain (by decide) 511 _ s (by omega) h, readAll_plain (by decide) 511 _ s (by omega) h⟩

theorem readMore_sub (e : End) : ∀ (n : Nat) (s : Bytes), ((readMore e n s).1 ++ (readMore e n s).2).Sublist s := by
  intro n
  induction n with
  | zero => intro s; simp [readMore]
  | succ n ih =>
    intro s
    cases s with
    | nil => cases e <;> simp [readMore, read1]
    | cons b r =>
      by_cases h : e ≠ .together ∨ r ≠ []
      · by_cases hb : b = 255
        · subst hb
          rw [readMore, read1_cons h]
          simp only [(signed_neg 255), if_true, List.nil_append]
          exact List.sublist_cons_self _ _
        · rw [readMore_cons h hb]
          exact (ih r).cons_cons b
      · simp only [ne_eq, not_or, Classical.not_not] at h
        obtain ⟨rfl, rfl⟩ := h
        simp [readMore, read1]

/-- **C257**: in every case what the program gets are bytes of the body, in order, none twice and none made up -/
theorem C257_order (e : End) (s : Bytes) : ((getBody e s).1).Sublist s := by
  have main : ∀ (n fuel : Nat) (s : Bytes), ((readAll e n fuel s).1).Sublist s := by
    intro n fuel
    induction fuel with
    | zero => intro s; simp [readAll]
    | succ fuel ih =>
      intro s
      cases s with
      | nil => cases e <;> simp [readAll, readBuf, read1]
      | cons b r =>
        by_cases h : e ≠ .together ∨ r ≠ []
        · by_cases hb : b = 255
          · subst hb; simp [readAll, readBuf, read1_cons h, (signed_neg 255)]
          · simp only [readAll, readBuf_cons h hb, List.cons_append]
            exact List.Sublist.cons_cons b (((List.Sublist.refl _).append (ih _)).trans (readMore_sub e n r))
        · simp only [ne_eq, not_or, Classical.not_not] at h
          obtain ⟨rfl, rfl⟩ := h
          simp [readAll, readBuf, read1]
  exact main _ _ s

theorem readMore_together (b : UInt8) : ∀ (n : Nat) (s : Bytes), 255 ∉ s →
    readMore .together n (s ++ [b]) = if n ≤ s.length then (s.take n, s.drop n ++ [b]) else (s, []) := by
  intro n
  induction n with
  | zero => intro s _; simp [readMore]
  | succ n ih =>
    intro s hs
    cases s with
    | nil => simp [readMore, read1]
    | cons a r =>
      simp only [List.mem_cons, not_or] at hs
      rw [List.cons_append, readMore_cons (.inr (by simp)) (fun h => hs.1 h.symm), ih r hs.2]
      by_cases hn : n ≤ r.length
      · simp [hn]
      · simp [hn]

/-- **C257** is false of the code: read byte by byte (`read()`, which must return the byte as a number from 0 to 255), every byte below 128 is returned as it is, and
every other one as that number less 256: a negative number, and for 255 the number that means the end -/
theorem C257_single_false (e : End) (b : UInt8) (r : Bytes) (h : e ≠ .together ∨ r ≠ []) :
    (b.toNat ≤ 127 → read1 e (b :: r) = (some (b.toNat : Int), r)) ∧
    (128 ≤ b.toNat → read1 e (b :: r) = (some ((b.toNat : Int) - 256), r) ∧ (b.toNat : Int) - 256 < 0) := by
  have hb := b.toNat_lt
  rw [read1_cons h]
  refine ⟨fun h1 => ?_, fun h1 => ⟨?_, by omega⟩⟩
  · rw [signed, if_pos (by omega)]
  · rw [signed, if_neg (by omega)]

/-- **C257** is false of the code: whenever the end comes with the last byte, as it does for every body with a length, the last byte is lost, and the program is told
that it has the whole body -/
theorem C257_last_false (s : Bytes) (b : UInt8) (h : 255 ∉ s) : getBody .together (s ++ [b]) = (s, true) := by
  have main : ∀ (n fuel : Nat) (s : Bytes), s.length + 1 < fuel → 255 ∉ s → readAll .together n fuel (s ++ [b]) = (s, true) := by
    intro n fuel
    induction fuel with
    | zero => intro s h _; omega
    | succ fuel ih =>
      intro s h hs
      cases s with
      | nil => simp [readAll, readBuf, read1]
      | cons a r =>
        simp only [List.mem_cons, not_or] at hs
        simp only [List.cons_append, readAll, readBuf_cons (e := .together) (n := n) (b := a) (r := r ++ [b]) (.inr (by simp)) (fun h => hs.1 h.symm)]
        rw [readMore_together b n r hs.2]
        simp only [List.length_cons] at h
        by_cases hn : n ≤ r.length
        · simp only [hn, if_true]
          rw [ih (r.drop n) (by simp only [List.length_drop]; omega) (fun hm => hs.2 (List.mem_of_mem_drop hm))]
          simp
        · simp only [hn, if_false]
          obtain ⟨f, rfl⟩ : ∃ f, fuel = f + 1 := ⟨fuel - 1, by omega⟩
          simp [readAll, readBuf, read1]
  unfold getBody
  have hl : (s ++ [b]).length + 1 = (s.length + 1) + 1 := by simp
  rw [hl]
  exact main 511 _ s (by omega) h

theorem readMore_ff (e : End) (q : Bytes) : ∀ (n : Nat) (p : Bytes), 255 ∉ p → p.length < n → readMore e n (p ++ 255 :: q) = (p, q) := by
  intro n
  induction n with
  | zero => intro p _ h; omega
  | succ n ih =>
    intro p hp hn
    cases p with
    | nil =>
      by_cases h : e ≠ .together ∨ q ≠ []
      · rw [List.nil_append, readMore, read1_cons h]; rfl
      · simp only [ne_eq, not_or, Classical.not_not] at h
        obtain ⟨rfl, rfl⟩ := h
        simp [readMore, read1]
    | cons a p =>
      simp only [List.mem_cons, not_or] at hp
      simp only [List.length_cons] at hn
      rw [List.cons_append, readMore_cons (.inr (by simp)) (fun h => hp.1 h.symm), ih p hp.2 (by omega)]

theorem read1_ff (e : End) (q : Bytes) : read1 e (255 :: q) = (some (-1), q) := by
  by_cases h : e ≠ .together ∨ q ≠ []
  · rw [read1_cons h]; rfl
  · simp only [ne_eq, not_or, Classical.not_not] at h
    obtain ⟨rfl, rfl⟩ := h
    simp [read1]

/-- **C257** is false of the code: a byte 255 is taken for the end: a body that begins with it is empty, the byte is left out elsewhere (here in the first buffer), and
everything after two of them is cut off. The program is told that it has the whole body, even if the connection failed. -/
theorem C257_ff_false (e : End) (q : Bytes) : getBody e (255 :: q) = ([], true) ∧
    ∀ p : Bytes, p ≠ [] → 255 ∉ p → p.length < 512 → getBody e (p ++ 255 :: 255 :: q) = (p, true) ∧
      (255 ∉ q → getBody .alone (p ++ 255 :: q) = (p ++ q, true)) := by
  refine ⟨?_, ?_⟩
  · simp [getBody, readAll, readBuf, read1_ff]
  · intro p hp h hl
    cases p with
    | nil => exact absurd rfl hp
    | cons a p =>
      simp only [List.mem_cons, not_or] at h
      simp only [List.length_cons] at hl
      have ha : a ≠ 255 := fun h' => h.1 h'.symm
      refine ⟨?_, ?_⟩
      · simp only [getBody, List.cons_append, readAll, readBuf_cons (.inr (show p ++ 255 :: 255 :: q ≠ [] by simp)) ha, readMore_ff e (255 :: q) 511 p h.2 (by omega)]
        have hf : (a :: (p ++ 255 :: 255 :: q)).length = (p.length + q.length + 2) + 1 := by simp; omega
        rw [hf]
        simp [readAll, readBuf, read1_ff]
      · intro hq
        simp only [getBody, List.cons_append, readAll, readBuf_cons (.inr (show p ++ 255 :: q ≠ [] by simp)) ha, readMore_ff .alone q 511 p h.2 (by omega)]
        rw [readAll_plain (by decide) 511 _ q (by simp; omega) hq]
        simp

/-- a request with the body `hi!` (non-vacuity): complete if it is chunked, without its last byte if it has a length -/
example : getBody .alone [104, 105, 33] = ([104, 105, 33], true) ∧ getBody .together [104, 105, 33] = ([104, 105], true) ∧
    getBody .alone [104, 255, 33] = ([104, 33], true) := by decide +kernel

/-! ### C258 -/

/-- the values the response has for a name, in order (specification) -/
def Resp.valuesOf (r : Resp) (k : Str) : List Str := (r.headers.filter fun e => decide (lower e.1 = lower k)).flatMap (·.2)

theorem values_addAll (k : Str) (k' : Str) (vs : List Str) : ∀ m : Raw, values .http (vs.foldl (fun m v => add .http m k v) m) k' =
    if canon k' = canon k then values .http m k' ++ vs else values .http m k' := by
  induction vs with
  | nil => intro m; simp
  | cons v vs ih =>
    intro m
    rw [List.foldl_cons, ih, (C242_change .http m k v k').2.1]
    by_cases h : canon k' = canon k
    · have h' : Kind.http.norm k' = Kind.http.norm k := h
      have hv : values .http m k = values .http m k' := by simp only [values, h']
      rw [if_pos h, if_pos h, if_pos h', hv]
      simp
    · have h' : ¬ Kind.http.norm k' = Kind.http.norm k := h
      rw [if_neg h, if_neg h, if_neg h']

/-- **C258**: every header of the response is sent with all its values, in order, after those Go had already; no other header is; and so is the status -/
theorem C258_headers (h0 : Raw) (r : Resp) (hn : ∀ e ∈ r.headers, Token e.1) (k : Str) (hk : Token k) :
    values .http (r.send h0).headers k = values .http h0 k ++ r.valuesOf k ∧ (r.send h0).status = r.status.getD 200 := by
  refine ⟨?_, rfl⟩
  have main : ∀ (l : List (Str × List Str)) (h0 : Raw), (∀ e ∈ l, Token e.1) →
      values .http (applyHeaders h0 l) k = values .http h0 k ++ (l.filter fun e => decide (lower e.1 = lower k)).flatMap (·.2) := by
    intro l
    induction l with
    | nil => intro h0 _; simp [applyHeaders]
    | cons e l ih =>
      intro h0 hl
      obtain ⟨a, vs⟩ := e
      rw [applyHeaders, ih _ (fun x hx => hl x (List.mem_cons_of_mem _ hx)), values_addAll]
      have hc := C242_names .http (k := a) (k' := k) (.inr (hl (a, vs) (by simp))) (.inr hk)
      by_cases h : lower a = lower k
      · have h' : canon k = canon a := (hc.2 h).symm
        rw [if_pos h']
        simp [h]
      · have h' : ¬ canon k = canon a := fun he => h (hc.1 he.symm)
        rw [if_neg h']
        simp [h]
  exact main r.headers h0 hn

/-- **C258**, for bodies that are in one buffer, and responses without body: the body is sent -/
theorem C258_body_partial (h0 : Raw) (r : Resp) (h : r.body.length ≤ 1) : (r.send h0).body = r.body.flatten := by
  match hb : r.body with
  | [] => simp [Resp.send, hb]
  | [b] => simp [Resp.send, hb]
  | _ :: _ :: _ => rw [hb] at h; simp at h

/-- **C258** is false of the code: of a body in several buffers only the first is sent -/
theorem C258_rest_false (h0 : Raw) (r : Resp) {a b : Bytes} {l : List Bytes} (h : r.body = a :: b :: l) (hb : b ≠ []) :
    (r.send h0).body = a ∧ (r.send h0).body ≠ r.body.flatten := by
  have h1 : (r.send h0).body = a := by simp [Resp.send, h]
  refine ⟨h1, ?_⟩
  rw [h1, h]
  intro he
  have := congrArg List.length he
  simp only [List.flatten_cons, List.length_append] at this
  have := List.length_pos_iff.2 hb
  omega

/-- **C258** is false of the code: cookies are never sent, and a body that is flushed piece by piece is not sent at all -/
theorem C258_cookies_false (h0 : Raw) (r : Resp) (hn : ∀ e ∈ r.headers, Token e.1) (hr : r.valuesOf "Set-Cookie".toList = [])
    (h : values .http h0 "Set-Cookie".toList = []) : values .http (r.send h0).headers "Set-Cookie".toList = [] ∧ r.sendFlushing h0 = none := by
  refine ⟨?_, rfl⟩
  rw [(C258_headers h0 r hn "Set-Cookie".toList (token_iff.1 (by decide))).1, h, hr, List.nil_append]

/-- a response that meets the hypotheses (non-vacuity), and what becomes of one in two buffers -/
example : let r : Resp := ⟨some 201, [("x-a".toList, ["1".toList, "2".toList]), ("Location".toList, ["/x".toList])], ["c=1".toList], [[1, 2], [3]]⟩
    (∀ e ∈ r.headers, Token e.1) ∧ values .http (r.send []).headers "X-A".toList = ["1".toList, "2".toList] ∧ (r.send []).body = [1, 2] ∧ r.valuesOf "Set-Cookie".toList = [] := by
  refine ⟨?_, by decide, by decide, by decide⟩
  intro e he
  simp only [List.mem_cons, List.not_mem_nil, or_false] at he
  rcases he with rfl | rfl
  · exact token_iff.1 (by decide)
  · exact token_iff.1 (by decide)

end Verif.Exp.Spring
