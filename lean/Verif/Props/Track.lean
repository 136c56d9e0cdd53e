import Verif.Net.Track
/-
C103, C104: the state of a connection in a stack of connections; the addresses of a listener on several sockets.
-/
namespace Verif.Props.Track
open Verif Verif.Heimdall Verif.Net.Track

/-! ### C103 -/

/-- the first TLS layer from outside -/
def firstTls (ls : List Layer) : Option Nat := (ls.find? (·.tls.isSome)).bind (·.tls)
/-- the last one -/
def lastTls (ls : List Layer) : Option Nat := firstTls ls.reverse

theorem firstTls_cons (l : Layer) (ls : List Layer) : firstTls (l :: ls) = if l.tls.isSome then l.tls else firstTls ls := by
  unfold firstTls
  by_cases h : l.tls.isSome
  · rw [List.find?_cons_of_pos (p := fun x : Layer => x.tls.isSome) h, if_pos h]; rfl
  · rw [List.find?_cons_of_neg (p := fun x : Layer => x.tls.isSome) h, if_neg h]

theorem track_found (ls : List Layer) (tls : Option Nat) (s : Nat) :
    track ls tls (some s) = (some s, (firstTls ls).or tls) := by
  induction ls generalizing tls with
  | nil => rfl
  | cons l ls ih =>
    simp only [track, firstTls_cons]
    cases h : l.tls with
    | some t => simp
    | none => simp [ih]

theorem track_none (ls : List Layer) (tls : Option Nat) (h : ∀ l ∈ ls, l.state = none) : (track ls tls none).1 = none := by
  induction ls generalizing tls with
  | nil => rfl
  | cons l ls ih =>
    simp only [track, Option.isSome_none, Bool.and_false, Bool.false_eq_true, if_false, Option.isNone_none, if_true]
    rw [h l (by simp)]
    exact ih _ (fun l' hl => h l' (by simp [hl]))

theorem firstTls_append (a b : List Layer) : firstTls (a ++ b) = (firstTls a).or (firstTls b) := by
  induction a with
  | nil => rfl
  | cons l a ih =>
    rw [List.cons_append, firstTls_cons, firstTls_cons, ih]
    cases l.tls <;> rfl

theorem track_search (pre : List Layer) (l : Layer) (post : List Layer) (tls : Option Nat) (s : Nat) (hp : ∀ l' ∈ pre, l'.state = none)
    (hl : l.state = some s) :
    track (pre ++ l :: post) tls none = (some s, ((firstTls post).or (lastTls (pre ++ [l]))).or tls) := by
  induction pre generalizing tls with
  | nil =>
    simp only [List.nil_append, track, Option.isSome_none, Bool.and_false, Bool.false_eq_true, if_false, Option.isNone_none, if_true, hl]
    rw [track_found]
    unfold lastTls
    simp only [List.reverse_singleton, firstTls_cons]
    cases l.tls <;> simp [firstTls, Option.or_assoc]
  | cons x pre ih =>
    simp only [List.cons_append, track, Option.isSome_none, Bool.and_false, Bool.false_eq_true, if_false, Option.isNone_none, if_true]
    rw [hp x (by simp), ih _ (fun l' h => hp l' (by simp [h]))]
    unfold lastTls
    rw [List.reverse_cons, firstTls_append, firstTls_cons]
    cases x.tls <;> simp [firstTls, Option.or_assoc]

/-- **C103** The state of a stack of connections is the one of the outermost layer that has one; it gets the TLS information of the
nearest TLS layer below this layer or, if there is none, of the nearest one above (or at) it. -/
theorem C103_state (pre : List Layer) (l : Layer) (post : List Layer) (s : Nat) (hp : ∀ l' ∈ pre, l'.state = none) (hl : l.state = some s) :
    connectionState (pre ++ l :: post) = some (s, (firstTls post).or (lastTls (pre ++ [l]))) := by
  unfold connectionState
  rw [track_search pre l post none s hp hl]
  simp

/-- **C103** Without a layer that has a state there is none. -/
theorem C103_none (ls : List Layer) (h : ∀ l ∈ ls, l.state = none) : connectionState ls = none := by
  unfold connectionState
  have := track_none ls none h
  cases ht : track ls none none with
  | mk a b => rw [ht] at this; simp only at this; subst this; rfl

/-- **C103** If there is a TLS layer anywhere and a state anywhere, the state gets TLS information. -/
theorem C103_tls (ls : List Layer) (s : Nat) (t : Option Nat) (h : connectionState ls = some (s, t)) (l : Layer) (hl : l ∈ ls)
    (ht : l.tls.isSome) : t.isSome := by
  have hex : ∃ l' ∈ ls, l'.state ≠ none := by
    by_cases hn : ∀ l ∈ ls, l.state = none
    · rw [C103_none ls hn] at h; cases h
    · have ⟨l', hx⟩ := Classical.not_forall.mp hn
      have ⟨h1, h2⟩ := Classical.not_imp.mp hx
      exact ⟨l', h1, h2⟩
  -- split at the first layer with a state
  have hsplit : ∃ pre l' post, ls = pre ++ l' :: post ∧ (∀ x ∈ pre, x.state = none) ∧ l'.state ≠ none := by
    clear h hl
    induction ls with
    | nil => obtain ⟨l', hm, _⟩ := hex; cases hm
    | cons x ls ih =>
      by_cases hx : x.state = none
      · have : ∃ l' ∈ ls, l'.state ≠ none := by
          obtain ⟨l', hm, hs⟩ := hex
          rcases List.mem_cons.mp hm with rfl | hm
          · exact absurd hx hs
          · exact ⟨l', hm, hs⟩
        obtain ⟨pre, l', post, h1, h2, h3⟩ := ih this
        exact ⟨x :: pre, l', post, by rw [h1]; rfl, by intro y hy; rcases List.mem_cons.mp hy with rfl | hy; exact hx; exact h2 y hy, h3⟩
      · exact ⟨[], x, ls, rfl, by simp, hx⟩
  obtain ⟨pre, l', post, h1, h2, h3⟩ := hsplit
  have F : ∀ (xs : List Layer), l ∈ xs → (firstTls xs).isSome := by
    intro xs
    induction xs with
    | nil => intro h; cases h
    | cons x xs ih =>
      intro hm
      rw [firstTls_cons]
      by_cases hx : x.tls.isSome
      · rw [if_pos hx]; exact hx
      · rw [if_neg hx]
        rcases List.mem_cons.mp hm with rfl | hm
        · exact absurd ht hx
        · exact ih hm
  cases hs : l'.state with
  | none => exact absurd hs h3
  | some s' =>
    rw [h1, C103_state pre l' post s' h2 hs] at h
    injection h with h; injection h with _ h; subst h
    rw [h1] at hl
    have : l ∈ post ∨ l ∈ (pre ++ [l']).reverse := by
      simp only [List.mem_append, List.mem_cons, List.mem_reverse, List.not_mem_nil, or_false] at hl ⊢
      rcases hl with h | h | h
      · exact .inr (.inl h)
      · exact .inr (.inr h)
      · exact .inl h
    rcases this with h | h
    · have := F _ h
      cases hf : firstTls post with
      | none => rw [hf] at this; cases this
      | some v => rfl
    · have := F _ h
      unfold lastTls
      cases firstTls post with
      | none => simpa using this
      | some v => rfl

/-- a TLS connection over a connection with state over a TLS connection -/
example : connectionState [⟨some 1, none⟩, ⟨none, some 5⟩, ⟨none, some 6⟩, ⟨some 2, none⟩, ⟨some 3, none⟩] = some (5, some 2) := by decide
example : connectionState [⟨some 1, none⟩, ⟨some 4, none⟩, ⟨none, some 5⟩, {}] = some (5, some 4) := by decide

/-! ### C104 -/

theorem zip_map (ls : List Addr) : zipAddrs (ls.map (·.net)) (ls.map (·.addr)) = ls := by
  induction ls with
  | nil => rfl
  | cons x ls ih => simp only [List.map_cons, zipAddrs]; rw [ih]

/-- **C104** (partial) If both iterations have the same order, there is a listener, and no network or address contains a comma, the
addresses are those of the listeners. -/
theorem C104_addrs_partial (order : List Addr → List Addr) (ls : List Addr) (hp : (order ls).Perm ls) (hne : ls ≠ [])
    (hc : ∀ a ∈ ls, ',' ∉ a.net ∧ ',' ∉ a.addr) : addrs order order ls = order ls ∧ (addrs order order ls).Perm ls := by
  have : addrs order order ls = order ls := by
    unfold addrs addrOf
    have hne' : order ls ≠ [] := by
      intro h; have := hp.length_eq; rw [h] at this
      exact hne (List.length_eq_zero_iff.mp this.symm)
    simp only
    rw [split_join, split_join]
    · exact zip_map _
    · simpa using hne'
    · intro x hx; obtain ⟨a, ha, rfl⟩ := List.mem_map.mp hx; exact (hc a (hp.mem_iff.mp ha)).2
    · simpa using hne'
    · intro x hx; obtain ⟨a, ha, rfl⟩ := List.mem_map.mp hx; exact (hc a (hp.mem_iff.mp ha)).1
  exact ⟨this, this ▸ hp⟩

theorem zip_same_net (n : Str) : ∀ (ns : List Str) (as : List Str), (∀ x ∈ ns, x = n) → ns.length = as.length →
    zipAddrs ns as = as.map fun a => ⟨n, a⟩ := by
  intro ns
  induction ns with
  | nil => intro as _ hl; cases as with
    | nil => rfl
    | cons => cases hl
  | cons x ns ih =>
    intro as h hl
    cases as with
    | nil => cases hl
    | cons a as =>
      simp only [zipAddrs, List.map_cons]
      rw [h x (by simp), ih as (fun y hy => h y (by simp [hy])) (by simpa using hl)]

/-- **C104** (partial) If all listeners are on the same network, as usual, the orders do not matter. -/
theorem C104_one_network_partial (order1 order2 : List Addr → List Addr) (ls : List Addr) (n : Str) (h1 : (order1 ls).Perm ls)
    (h2 : (order2 ls).Perm ls) (hne : ls ≠ []) (hn : ∀ a ∈ ls, a.net = n ∧ ',' ∉ a.net ∧ ',' ∉ a.addr) :
    (addrs order1 order2 ls).Perm ls := by
  unfold addrs addrOf
  have ne : ∀ o : List Addr → List Addr, (o ls).Perm ls → o ls ≠ [] := by
    intro o hp h; have := hp.length_eq; rw [h] at this
    exact hne (List.length_eq_zero_iff.mp this.symm)
  simp only
  rw [split_join, split_join]
  · rw [zip_same_net n]
    · refine List.Perm.trans ?_ h2
      rw [List.map_map]
      have : (order2 ls).map ((fun a => (⟨n, a⟩ : Addr)) ∘ (·.addr)) = (order2 ls).map id := by
        refine List.map_congr_left ?_
        intro a ha
        have := (hn a (h2.mem_iff.mp ha)).1
        cases a; simp only at this; subst this; rfl
      rw [this, List.map_id]
    · intro x hx; obtain ⟨a, ha, rfl⟩ := List.mem_map.mp hx; exact (hn a (h1.mem_iff.mp ha)).1
    · simp [h1.length_eq, h2.length_eq]
  · simpa using ne _ h2
  · intro x hx; obtain ⟨a, ha, rfl⟩ := List.mem_map.mp hx; exact (hn a (h2.mem_iff.mp ha)).2.2
  · simpa using ne _ h1
  · intro x hx; obtain ⟨a, ha, rfl⟩ := List.mem_map.mp hx; exact (hn a (h1.mem_iff.mp ha)).2.1

def twoNets : List Addr := [⟨"tcp".toList, "127.0.0.1:80".toList⟩, ⟨"unix".toList, "/run/s".toList⟩]

/-- **C104 is false of the code**: the two iterations may have different orders, then networks and addresses are mixed up; -/
theorem C104_mixed_false : addrs id List.reverse twoNets = [⟨"tcp".toList, "/run/s".toList⟩, ⟨"unix".toList, "127.0.0.1:80".toList⟩] := by
  decide +kernel

/-- without a listener (all closed) there is an address nevertheless. -/
theorem C104_empty_false : addrs id id [] = [⟨[], []⟩] := by decide +kernel

example : addrs List.reverse List.reverse twoNets = twoNets.reverse ∧ (∀ a ∈ twoNets, ',' ∉ a.net ∧ ',' ∉ a.addr) := by decide +kernel

end Verif.Props.Track
