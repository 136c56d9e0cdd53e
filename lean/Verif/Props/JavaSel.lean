import Verif.Exp.JavaSel
import Verif.Props.NioKey
/-
Properties C255 and C256: the selector reports to every key what is ready for it, and channels are connected as asked.
-/
namespace Verif.Exp.JavaSel
open Verif.Nio Verif.Props

/-! ### C255 -/

theorem opIf_bit (b : Bool) (j i : Nat) : (opIf b (2 ^ j)).testBit i = (b && decide (i = j)) := by
  cases b
  · simp [opIf]
  · simp [opIf, Nat.testBit_two_pow, eq_comm]

/-- an operation of a key is ready (specification): bits 0, 2, 3, 4 are reading, writing, connecting, accepting -/
def Key.isReady (k : Key) (op : Nat) : Bool := k.ready.testBit op

/-- the key wants to know about an operation (specification) -/
def Key.wants (k : Key) (op : Nat) : Bool := k.interest.testBit op

/-- what was ready before counts as long as the program has not taken the key from the selected set (specification: the JDK) -/
def Key.stillReady (k : Key) (op : Nat) : Bool := k.selected && k.isReady op

/-- **C255**: a connected channel is told about exactly what is ready for reading and writing and asked for, and a key is selected if there is such an operation -/
theorem C255_ready (k : Key) (ops : Nat) (hs : k.server = false) (hc : k.connected = true) (h3 : ops.testBit 3 = false) (h4 : ops.testBit 4 = false)
    (h5 : ops.testBit 5 = false) (op : Nat) :
    (process k ops).isReady op = (k.stillReady op || (ops.testBit op && k.wants op && (decide (op = 0) || decide (op = 2)))) ∧
    (process k ops).interest = k.interest ∧ (k.selected = true → (process k ops).selected = true) := by
  have ht : ∀ init, (translate k ops init).testBit op = (init.testBit op || (ops.testBit op && k.wants op && (decide (op = 0) || decide (op = 2)))) := by
    intro init
    simp only [translate, h3, h4, h5, hs, hc, Bool.or_false, Bool.false_eq_true, if_false, Bool.not_true, Bool.and_false, Bool.and_true]
    rw [show (1 : Nat) = 2 ^ 0 by rfl, show (4 : Nat) = 2 ^ 2 by rfl, show (8 : Nat) = 2 ^ 3 by rfl]
    simp only [Nat.testBit_or, opIf_bit, Key.wants, Bool.false_and, Bool.or_false]
    by_cases e0 : op = 0
    · subst e0; simp
    · by_cases e2 : op = 2
      · subst e2; simp
      · simp [e0, e2]
  simp only [process, Key.isReady, Key.stillReady]
  cases hsel : k.selected
  · simp [ht]
  · simp [ht]

/-- **C255**: a key that was not selected is selected exactly if an operation asked for is ready -/
theorem C255_selected (k : Key) (ops : Nat) (hs : k.server = false) (hc : k.connected = true) (h3 : ops.testBit 3 = false) (h4 : ops.testBit 4 = false)
    (h5 : ops.testBit 5 = false) (hn : k.selected = false) :
    (process k ops).selected = true ↔ (ops.testBit 0 = true ∧ k.wants 0 = true) ∨ (ops.testBit 2 = true ∧ k.wants 2 = true) := by
  have hr := fun op => (C255_ready k ops hs hc h3 h4 h5 op).1
  have hp : (process k ops).selected = decide ((process k ops).ready &&& k.interest ≠ 0) := by simp [process, hn]
  rw [hp, decide_eq_true_iff]
  have hb : ∀ op, ((process k ops).ready &&& k.interest).testBit op = (ops.testBit op && k.wants op && (decide (op = 0) || decide (op = 2))) := by
    intro op
    have := hr op
    simp only [Key.isReady, Key.stillReady, hn, Bool.false_and, Bool.false_or] at this
    rw [Nat.testBit_and, this, Key.wants]
    cases k.interest.testBit op <;> simp
  constructor
  · intro hne
    obtain ⟨i, hi⟩ := Nat.exists_testBit_of_ne_zero hne
    rw [hb] at hi
    simp only [Bool.and_eq_true, Bool.or_eq_true, decide_eq_true_eq] at hi
    obtain ⟨⟨a, b⟩, rfl | rfl⟩ := hi
    · exact Or.inl ⟨a, b⟩
    · exact Or.inr ⟨a, b⟩
  · rintro (⟨a, b⟩ | ⟨a, b⟩) hz
    · have := hb 0; rw [hz] at this; simp [a, b] at this
    · have := hb 2; rw [hz] at this; simp [a, b] at this

/-- **C255**: a server that waits for connections is told when there is one -/
theorem C255_accept (k : Key) (hi : k.interest = 16) : (process k opAccept).isReady 4 = true ∧ (process k opAccept).selected = true := by
  have hs : k.selected = true ∨ k.selected = false := by cases k.selected <;> simp
  have ht : ∀ init, translate k opAccept init = 16 := by
    intro init
    simp only [translate, opAccept, hi, show Nat.testBit 16 5 = false by decide, show Nat.testBit 16 3 = false by decide, show Nat.testBit 16 4 = true by decide,
      Bool.false_eq_true, if_false, Bool.or_true, if_true]
  rcases hs with h | h
  · simp only [process, h, if_true, ht, Key.isReady]; exact ⟨by decide, trivial⟩
  · simp only [process, h, Bool.false_eq_true, if_false, ht, hi, Key.isReady]; exact ⟨by decide, by decide⟩

/-- **C255**: a client that only waits to be connected is told when it is, and nothing else -/
theorem C255_connect_partial (k : Key) (hi : k.interest = 8) (hr : k.ready = 0) : (process k opConnect).ready = 8 ∧ (process k opConnect).selected = true := by
  have hs : k.selected = true ∨ k.selected = false := by cases k.selected <;> simp
  have ht : ∀ init, translate k opConnect init = 8 := by
    intro init
    simp only [translate, opConnect, hi, show Nat.testBit 8 5 = false by decide, show Nat.testBit 8 3 = true by decide, Bool.false_eq_true, if_false,
      Bool.true_or, if_true]
  rcases hs with h | h
  · simp only [process, h, if_true, ht]; exact ⟨trivial, trivial⟩
  · simp only [process, h, Bool.false_eq_true, if_false, ht, hi]; exact ⟨trivial, by decide⟩

/-- **C255** is false of the code: the event of a connection that was made reports everything the key asks for as ready, whether it is or not -/
theorem C255_connect_false (k : Key) : ∀ op, (process k opConnect).isReady op = k.wants op := by
  intro op
  have ht : ∀ init, translate k opConnect init = k.interest := by
    intro init
    simp only [translate, opConnect, show Nat.testBit 8 5 = false by decide, show Nat.testBit 8 3 = true by decide, Bool.false_eq_true, if_false,
      Bool.true_or, if_true]
  simp only [process, ht, Key.isReady, Key.wants]
  split <;> rfl

/-- different keys have different hash codes, and the table has the keys that are registered (specification) -/
structure Good (s : Sel) (reg : List Nat) : Prop where
  inj : ∀ i ∈ reg, ∀ j ∈ reg, (s.keys i).hash = (s.keys j).hash → i = j
  tab : ∀ h i, s.table h = some i ↔ i ∈ reg ∧ (s.keys i).hash = h

theorem process_hash (k : Key) (ops : Nat) : (process k ops).hash = k.hash ∧ (process k ops).valid = k.valid := by
  simp only [process]; split <;> exact ⟨rfl, rfl⟩

theorem setKey_good {s : Sel} {reg : List Nat} (h : Good s reg) (i : Nat) {k : Key} (hk : k.hash = (s.keys i).hash) : Good (s.setKey i k) reg := by
  have hh : ∀ j, ((s.setKey i k).keys j).hash = (s.keys j).hash := by
    intro j
    simp only [Sel.setKey]
    split
    · rename_i e; rw [e, hk]
    · rfl
  refine ⟨?_, ?_⟩
  · intro a ha b hb he
    rw [hh, hh] at he
    exact h.inj a ha b hb he
  · intro x j
    rw [hh]
    exact h.tab x j

/-- **C255**: the words of `Select` go to the keys they are for: every registered valid key is told exactly the words with its number, in their order; other keys are
left alone -/
theorem C255_dispatch (ws : List Nat) : ∀ {s : Sel} {reg : List Nat}, Good s reg → ∀ i,
    (s.doSelect ws).keys i = if i ∈ reg ∧ (s.keys i).valid = true then
      (ws.filter fun w => keyId w = (s.keys i).hash).foldl (fun k w => process k (keyOp w)) (s.keys i) else s.keys i := by
  induction ws with
  | nil => intro s reg _ i; simp [Sel.doSelect]
  | cons w ws ih =>
    intro s reg hg i
    simp only [Sel.doSelect]
    cases ht : s.table (keyId w) with
    | none =>
      simp only []
      rw [ih hg i]
      by_cases hc : i ∈ reg ∧ (s.keys i).valid = true
      · have hne : ¬ keyId w = (s.keys i).hash := by
          intro he
          have := (hg.tab (keyId w) i).2 ⟨hc.1, he.symm⟩
          rw [ht] at this; cases this
        rw [if_pos hc, if_pos hc, List.filter_cons_of_neg (by simpa using hne)]
      · rw [if_neg hc, if_neg hc]
    | some j =>
      obtain ⟨hj, hjh⟩ := (hg.tab _ _).1 ht
      simp only []
      by_cases hv : (s.keys j).valid = true
      · rw [if_pos hv]
        have hg1 : Good (s.setKey j (process (s.keys j) (keyOp w))) reg := setKey_good hg j (process_hash _ _).1
        rw [ih hg1 i]
        by_cases hij : i = j
        · subst hij
          have hk : ((s.setKey i (process (s.keys i) (keyOp w))).keys i) = process (s.keys i) (keyOp w) := by simp [Sel.setKey]
          rw [hk, (process_hash _ _).1, (process_hash _ _).2, if_pos ⟨hj, hv⟩, if_pos ⟨hj, hv⟩, List.filter_cons_of_pos (by simpa using hjh.symm), List.foldl_cons]
        · have hk : ((s.setKey j (process (s.keys j) (keyOp w))).keys i) = s.keys i := by simp [Sel.setKey, hij]
          rw [hk]
          by_cases hc : i ∈ reg ∧ (s.keys i).valid = true
          · have hne : ¬ keyId w = (s.keys i).hash := by
              intro he
              exact hij (hg.inj i hc.1 j hj (he.symm.trans hjh.symm))
            rw [if_pos hc, if_pos hc, List.filter_cons_of_neg (by simpa using hne)]
          · rw [if_neg hc, if_neg hc]
      · rw [if_neg hv, ih hg i]
        by_cases hc : i ∈ reg ∧ (s.keys i).valid = true
        · have hne : ¬ keyId w = (s.keys i).hash := by
            intro he
            have := hg.inj i hc.1 j hj (he.symm.trans hjh.symm)
            subst this
            exact hv hc.2
          rw [if_pos hc, if_pos hc, List.filter_cons_of_neg (by simpa using hne)]
        · rw [if_neg hc, if_neg hc]

/-- **C255**: a key that is registered, with a hash code of its own, joins the others: none of them loses its words -/
theorem C255_register {s : Sel} {reg : List Nat} (hg : Good s reg) {i : Nat} (hi : ∀ j ∈ reg, (s.keys j).hash ≠ (s.keys i).hash) :
    Good (s.register i) (i :: reg) := by
  refine ⟨?_, ?_⟩
  · intro a ha b hb he
    have he : (s.keys a).hash = (s.keys b).hash := he
    rcases List.mem_cons.1 ha with h1 | h1 <;> rcases List.mem_cons.1 hb with h2 | h2
    · rw [h1, h2]
    · rw [h1] at he; exact absurd he.symm (hi b h2)
    · rw [h2] at he; exact absurd he (hi a h1)
    · exact hg.inj a h1 b h2 he
  · intro h j
    show (if h = (s.keys i).hash then some i else s.table h) = some j ↔ j ∈ i :: reg ∧ (s.keys j).hash = h
    by_cases hh : h = (s.keys i).hash
    · rw [if_pos hh]
      constructor
      · intro e; cases e; exact ⟨List.mem_cons_self, hh.symm⟩
      · rintro ⟨hj, e⟩
        rcases List.mem_cons.1 hj with rfl | hj
        · rfl
        · exact absurd (e.trans hh) (hi j hj)
    · rw [if_neg hh, hg.tab]
      constructor
      · rintro ⟨a, b⟩; exact ⟨List.mem_cons_of_mem _ a, b⟩
      · rintro ⟨a, b⟩
        rcases List.mem_cons.1 a with rfl | a
        · exact absurd b.symm hh
        · exact ⟨a, b⟩

/-- **C255**: a key that was deregistered leaves the others as they were, -/
theorem C255_deregister {s : Sel} {reg : List Nat} (hg : Good s reg) {i : Nat} (hi : i ∈ reg) : Good (s.dereg i) (reg.filter (fun j => decide (j ≠ i))) := by
  refine ⟨?_, ?_⟩
  · intro a ha b hb he
    exact hg.inj a (List.mem_filter.1 ha).1 b (List.mem_filter.1 hb).1 he
  · intro h j
    show (if h = (s.keys i).hash then none else s.table h) = some j ↔ j ∈ reg.filter (fun j => decide (j ≠ i)) ∧ (s.keys j).hash = h
    rw [List.mem_filter, decide_eq_true_iff]
    by_cases hh : h = (s.keys i).hash
    · rw [if_pos hh]
      constructor
      · intro e; cases e
      · rintro ⟨⟨hj, hne⟩, e⟩; exact absurd (hg.inj j hj i hi (e.trans hh)) hne
    · rw [if_neg hh, hg.tab]
      constructor
      · rintro ⟨a, b⟩; exact ⟨⟨a, fun e => hh (by rw [← b, e])⟩, b⟩
      · rintro ⟨⟨a, _⟩, b⟩; exact ⟨a, b⟩

/-- **C255**: and is told nothing any more, whatever `Select` returns -/
theorem C255_deregistered {s : Sel} {reg : List Nat} (hg : Good s reg) {i : Nat} (hi : i ∈ reg) (ws : List Nat) :
    ((s.dereg i).doSelect ws).keys i = s.keys i := by
  rw [C255_dispatch ws (C255_deregister hg hi) i, if_neg (by simp)]
  rfl

theorem filter_nodup_one {ws : List Nat} (hn : (ws.map keyId).Nodup) {w : Nat} (hw : w ∈ ws) : ws.filter (fun v => decide (keyId v = keyId w)) = [w] := by
  induction ws with
  | nil => simp at hw
  | cons v vs ih =>
    rw [List.map_cons, List.nodup_cons] at hn
    rcases List.mem_cons.1 hw with rfl | hw
    · rw [List.filter_cons_of_pos (by simp)]
      rw [List.filter_eq_nil_iff.2]
      intro x hx he
      simp only [decide_eq_true_eq] at he
      exact hn.1 (he ▸ List.mem_map_of_mem hx)
    · have hne : ¬ keyId v = keyId w := fun he => hn.1 (he ▸ List.mem_map_of_mem hw)
      rw [List.filter_cons_of_neg (by simpa using hne), ih hn.2 hw]

/-- **C255**, with `Select` of Go (C82): for every queue of events a connected channel that was not selected is told about exactly those of reading and writing for which there is an
event and which it asks for. Only read and write events are posted for a connected channel -/
theorem C255_end_to_end_partial (order : List (Nat × Nat) → List (Nat × Nat)) (horder : ∀ l, (order l).Perm l) (q : List Nat)
    (hq : ∀ k ∈ q, ∃ op id, k = newKey op id ∧ op < 256 ∧ id < 2 ^ 32) {s : Sel} {reg : List Nat} (hg : Good s reg) {i : Nat} (hi : i ∈ reg)
    (hv : (s.keys i).valid = true) (hs : (s.keys i).server = false) (hc : (s.keys i).connected = true) (hsel : (s.keys i).selected = false)
    (hr : (s.keys i).ready = 0)
    (hrw : ∀ b, (b = 3 ∨ b = 4 ∨ b = 5) → (opsOf (s.keys i).hash (events q)).testBit b = false) :
    ∃ n, ∀ op, (op = 0 ∨ op = 2) →
      (((s.doSelect (decodeKeys n (selectBytes order q))).keys i).isReady op = true ↔
        (opsOf (s.keys i).hash (events q)).testBit op = true ∧ (s.keys i).wants op = true) := by
  obtain ⟨ks, _, h2, h3, h4, h5⟩ := C82_select order horder q hq
  refine ⟨ks.length, ?_⟩
  intro op hop
  rw [h2, C255_dispatch ks hg i, if_pos ⟨hi, hv⟩]
  by_cases hm : (s.keys i).hash ∈ ks.map keyId
  · obtain ⟨w, hw, hwi⟩ := List.mem_map.1 hm
    rw [← hwi, filter_nodup_one h3 hw, List.foldl_cons, List.foldl_nil]
    have ho := h5 w hw
    rw [← ho]
    rw [← hwi, ← ho] at hrw
    rw [(C255_ready _ _ hs hc (hrw 3 (by simp)) (hrw 4 (by simp)) (hrw 5 (by simp)) op).1]
    rcases hop with rfl | rfl <;> simp [Key.stillReady, hsel]
  · have hf : (ks.filter fun w => decide (keyId w = (s.keys i).hash)) = [] := by
      rw [List.filter_eq_nil_iff]
      intro x hx he
      simp only [decide_eq_true_eq] at he
      exact hm (he ▸ List.mem_map_of_mem hx)
    rw [hf, List.foldl_nil]
    have hz : opsOf (s.keys i).hash (events q) = 0 := by
      apply opsOf_none
      intro hex
      apply hm
      rw [h4]
      simpa [events, and_assoc] using hex
    simp [hz, Key.isReady, hr]

/-- **C255** is false of the code when two keys have the same hash code, which the JDK does not exclude: the events of the first go to the second -/
theorem C255_collision_false : ∃ (s : Sel), (s.keys 0).hash = (s.keys 1).hash ∧ s.table = (((({ s with table := fun _ => none }).register 0).register 1).table) ∧
    ((s.doSelect [newKey opRead (s.keys 0).hash]).keys 0).isReady 0 = false ∧
    ((s.doSelect [newKey opRead (s.keys 0).hash]).keys 1).isReady 0 = true := by
  let ks : Nat → Key := fun _ => { hash := 7, server := false, connected := true, interest := 1 }
  refine ⟨((({ keys := ks, table := fun _ => none } : Sel).register 0).register 1), rfl, ?_, by decide, by decide⟩
  rfl

/-- **C255**: what is asked for is started: reading and writing on a connected channel exactly if asked for, and waiting for connections on a server -/
theorem C255_start (k : Key) (addr : Bool) (hs : k.server = false) :
    (.read k.hash ∈ setEventOps k true addr ↔ k.wants 0 = true) ∧ (.write k.hash ∈ setEventOps k true addr ↔ k.wants 2 = true) ∧
    (.unregisterWriter k.hash ∈ setEventOps k true addr ↔ k.wants 2 = false) ∧ .npe ∉ setEventOps k true addr := by
  cases h0 : k.interest.testBit 0 <;> cases h2 : k.interest.testBit 2 <;> cases h3 : k.interest.testBit 3 <;> cases addr <;>
    simp [setEventOps, Key.wants, h0, h2, h3, hs]

/-- **C255**: connecting on a channel: it is started exactly if asked for and the address is known; else it is remembered for later -/
theorem C255_start_connect (k : Key) (addr : Bool) (hs : k.server = false) :
    (.dial k.hash ∈ setEventOps k true addr ↔ k.wants 3 = true ∧ addr = true) ∧ (.saveSelector ∈ setEventOps k true addr ↔ k.wants 3 = true ∧ addr = false) := by
  cases h0 : k.interest.testBit 0 <;> cases h2 : k.interest.testBit 2 <;> cases h3 : k.interest.testBit 3 <;> cases addr <;>
    simp [setEventOps, Key.wants, h0, h2, h3, hs]

/-- **C255**: a server -/
theorem C255_start_server (k : Key) (conn addr : Bool) (hs : k.server = true) : .accept k.hash ∈ setEventOps k conn addr ↔ k.wants 4 = true := by
  cases h0 : k.interest.testBit 4 <;> cases h2 : k.interest.testBit 2 <;> simp [setEventOps, Key.wants, h0, h2, hs]

/-- **C255** is false of the code: asking to read or write before the channel is connected fails with a null pointer, and connecting, which was
asked for with it, is not even started -/
theorem C255_early_false (k : Key) (addr : Bool) (hs : k.server = false) (hw : k.wants 0 = true ∨ k.wants 2 = true) : .npe ∈ setEventOps k false addr ∧
    .dial k.hash ∉ setEventOps k false addr := by
  simp only [Key.wants] at hw
  cases h0 : k.interest.testBit 0 <;> cases h2 : k.interest.testBit 2 <;> cases h3 : k.interest.testBit 3 <;> cases addr <;>
    simp_all [setEventOps]

/-- the hypotheses are met: two connected channels, of which one can be read and one written -/
example : (fun s : Sel => ((s.doSelect [newKey opRead 7, newKey opWrite 9]).keys 0, (s.doSelect [newKey opRead 7, newKey opWrite 9]).keys 1))
    { keys := fun i => if i = 0 then { hash := 7, server := false, connected := true, interest := 1 } else { hash := 9, server := false, connected := true, interest := 5 },
      table := fun h => if h = 7 then some 0 else if h = 9 then some 1 else none } =
    ({ hash := 7, server := false, connected := true, interest := 1, ready := 1, selected := true },
     { hash := 9, server := false, connected := true, interest := 5, ready := 4, selected := true }) := by decide +kernel

/-! ### C256 -/

/-- a program that uses the channel as the code expects: it fetches the socket first, connects once, asks once to be told, finishes once, and closes a connected channel -/
def Polite (c : Ch) : Act → Prop
  | .connect _ => c.sock = true ∧ c.addr = none
  | .interest => c.dials = [] ∧ c.sel = false
  | .finish => c.sock = true ∧ c.connected = false
  | .close => c.connected = true
  | _ => True

/-- runs with a condition on the steps -/
inductive Reach (g : Ch → Act → Prop) : Ch → Prop where
  | init : Reach g {}
  | step {c : Ch} {a : Act} : Reach g c → g c a → Reach g (exec c a)

/-- the invariant of polite runs -/
structure CInv (c : Ch) : Prop where
  npe : c.npe = false
  dials : ∀ a ∈ c.dials, c.addr = some a
  one : c.dials.length ≤ 1
  dialing : ∀ a ∈ c.dialing, a ∈ c.dials
  sel : c.sel = true → ∀ a, c.addr = some a → c.dials = [a]
  adr : c.dials ≠ [] → c.addr ≠ none
  made : ∀ p ∈ c.made, c.addr = some p.2 ∧ c.addrOf p.1 = p.2 ∧ p.1 < c.next
  con : ∀ x, c.conn = some x → c.connected = true ∧ c.sockConn = some x ∧ c.addr = some (c.addrOf x) ∧ x < c.next
  isc : c.connected = true → c.conn ≠ none
  sck : c.sockConn ≠ none → c.connected = true
  res : c.results.contains true = c.connected

theorem CInv.step {c : Ch} {a : Act} (h : CInv c) (hg : Polite c a) : CInv (exec c a) := by
  obtain ⟨h1, h2, h3, h4, h5, h6, h7, h8, h9, h10, h11⟩ := h
  cases a with
  | socket =>
    simp only [exec]
    split
    · exact ⟨h1, h2, h3, h4, h5, h6, h7, h8, h9, h10, h11⟩
    · refine ⟨h1, h2, h3, h4, h5, h6, h7, ?_, h9, ?_, h11⟩
      · intro x hx
        obtain ⟨a, b, c, d⟩ := h8 x hx
        exact ⟨a, hx, c, d⟩
      · intro hs
        cases hx : c.conn with
        | none => exact absurd hx hs
        | some x => exact (h8 x hx).1
  | connect a =>
    obtain ⟨hsk, had⟩ := hg
    have hd : c.dials = [] := by
      cases hd : c.dials with
      | nil => rfl
      | cons b r => exact absurd had (h6 (by rw [hd]; simp))
    have hdl : c.dialing = [] := by
      cases hx : c.dialing with
      | nil => rfl
      | cons b r => have := h4 b (by rw [hx]; simp); rw [hd] at this; simp at this
    have hm : c.made = [] := by
      cases hx : c.made with
      | nil => rfl
      | cons p r => have := (h7 p (by rw [hx]; simp)).1; rw [had] at this; cases this
    have hcn : c.conn = none := by
      cases hx : c.conn with
      | none => rfl
      | some x => have := (h8 x hx).2.2.1; rw [had] at this; cases this
    simp only [exec, hsk, Bool.true_eq_false, if_false]
    by_cases hs : c.sel = true
    · rw [if_pos hs]
      refine ⟨h1, ?_, ?_, ?_, ?_, ?_, ?_, ?_, h9, h10, h11⟩
      · intro b hb; simp [Ch.startDial, hd] at hb; simp [Ch.startDial, hb]
      · simp [Ch.startDial, hd]
      · intro b hb; simp [Ch.startDial, hdl] at hb; simp [Ch.startDial, hb]
      · intro _ b hb; simp [Ch.startDial] at hb; subst hb; simp [Ch.startDial, hd]
      · intro _; simp [Ch.startDial]
      · intro p hp; simp [Ch.startDial, hm] at hp
      · intro x hx; simp [Ch.startDial, hcn] at hx
    · rw [if_neg hs]
      refine ⟨h1, ?_, h3, h4, ?_, ?_, ?_, ?_, h9, h10, h11⟩
      · intro b hb; simp [hd] at hb
      · intro hc; exact absurd hc hs
      · intro _; simp
      · intro p hp; simp [hm] at hp
      · intro x hx; simp [hcn] at hx
  | interest =>
    obtain ⟨hd, hs⟩ := hg
    have hdl : c.dialing = [] := by
      cases hx : c.dialing with
      | nil => rfl
      | cons b r => have := h4 b (by rw [hx]; simp); rw [hd] at this; simp at this
    rcases hadr : c.addr with _ | a
    · have he : exec c .interest = { c with sel := true } := by simp only [exec]; rw [hadr]
      rw [he]
      refine ⟨h1, h2, h3, h4, ?_, h6, h7, h8, h9, h10, h11⟩
      intro _ a ha
      have ha' : c.addr = some a := ha
      rw [hadr] at ha'; cases ha'
    · have he : exec c .interest = c.startDial a := by simp only [exec]; rw [hadr]
      rw [he]
      refine ⟨h1, ?_, ?_, ?_, ?_, ?_, h7, h8, h9, h10, h11⟩
      · intro b hb; simp [Ch.startDial, hd] at hb; subst hb; exact hadr
      · simp [Ch.startDial, hd]
      · intro b hb; simp [Ch.startDial, hdl] at hb; simp [Ch.startDial, hb]
      · intro hc; simp [Ch.startDial, hs] at hc
      · intro _; simp [Ch.startDial, hadr]
  | dialOk =>
    simp only [exec]
    cases hdl : c.dialing with
    | nil => exact ⟨h1, h2, h3, h4, h5, h6, h7, h8, h9, h10, h11⟩
    | cons a r =>
      simp only []
      have ha := h2 a (h4 a (by rw [hdl]; simp))
      refine ⟨h1, h2, h3, ?_, h5, h6, ?_, ?_, h9, h10, h11⟩
      · intro b hb; exact h4 b (by rw [hdl]; exact List.mem_cons_of_mem _ hb)
      · intro p hp
        simp only [List.mem_append, List.mem_singleton] at hp
        rcases hp with hp | rfl
        · obtain ⟨m1, m2, m3⟩ := h7 p hp
          refine ⟨m1, ?_, by show p.1 < c.next + 1; omega⟩
          show (if p.1 = c.next then a else c.addrOf p.1) = p.2
          rw [if_neg (by omega), m2]
        · exact ⟨ha, by simp, by show c.next < c.next + 1; omega⟩
      · intro x hx
        obtain ⟨a1, a2, a3, a4⟩ := h8 x hx
        refine ⟨a1, a2, ?_, by show x < c.next + 1; omega⟩
        show c.addr = some (if x = c.next then a else c.addrOf x)
        rw [if_neg (by omega), a3]
  | dialFail =>
    refine ⟨h1, h2, h3, ?_, h5, h6, h7, h8, h9, h10, h11⟩
    intro b hb
    exact h4 b (List.mem_of_mem_tail hb)
  | finish =>
    obtain ⟨hsk, hcd⟩ := hg
    have hcn : c.conn = none := by
      cases hx : c.conn with
      | none => rfl
      | some x => have := (h8 x hx).1; rw [hcd] at this; cases this
    have hsc : c.sockConn = none := by
      cases hx : c.sockConn with
      | none => rfl
      | some x => have := h10 (by rw [hx]; simp); rw [hcd] at this; cases this
    rcases hm : c.made with _ | ⟨p, r⟩
    · have he : exec c .finish = { c with conn := none, results := false :: c.results } := by simp only [exec]; rw [hm]
      rw [he]
      refine ⟨h1, h2, h3, h4, h5, h6, ?_, ?_, ?_, h10, ?_⟩
      · intro p hp; exact h7 p hp
      · intro x hx; cases hx
      · intro hc; rw [hcd] at hc; cases hc
      · simpa using h11
    · obtain ⟨x, b⟩ := p
      simp only [exec, hm, hsk, Bool.true_eq_false, if_false, hsc, if_true]
      obtain ⟨m1, m2, m3⟩ := h7 (x, b) (by rw [hm]; simp)
      refine ⟨h1, h2, h3, h4, h5, h6, ?_, ?_, ?_, ?_, ?_⟩
      · intro p hp; exact h7 p (by rw [hm]; exact List.mem_cons_of_mem _ hp)
      · intro y hy
        simp at hy; subst hy
        exact ⟨rfl, rfl, by show c.addr = some (c.addrOf x); rw [m2]; exact m1, m3⟩
      · intro _; simp
      · intro _; rfl
      · simp
  | close =>
    simp only [exec]
    split
    · exact ⟨h1, h2, h3, h4, h5, h6, h7, h8, h9, h10, h11⟩
    · exact ⟨h1, h2, h3, h4, h5, h6, h7, h8, h9, h10, h11⟩

theorem cinv {c : Ch} (h : Reach Polite c) : CInv c := by
  induction h with
  | init => constructor <;> simp
  | step _ hg ih => exact ih.step hg

/-- **C256**, for programs that use the channel as the code expects: nothing fails with a null pointer; at most one connection is asked for, to the address given;
`finishConnect` has returned true exactly if the channel is connected; and then it uses a connection to that address -/
theorem C256_connect_partial {c : Ch} (h : Reach Polite c) : c.npe = false ∧ c.dials.length ≤ 1 ∧ (∀ a ∈ c.dials, c.addr = some a) ∧
    (true ∈ c.results ↔ c.connected = true) ∧ (c.connected = true → ∃ x a, c.conn = some x ∧ c.addr = some a ∧ c.addrOf x = a) := by
  have hi := cinv h
  refine ⟨hi.npe, hi.one, hi.dials, ?_, ?_⟩
  · rw [← hi.res]; simp
  · intro hc
    cases hx : c.conn with
    | none => exact absurd hx (hi.isc hc)
    | some x => exact ⟨x, c.addrOf x, rfl, (hi.con x hx).2.2.1, rfl⟩

/-- **C256**: in whichever order a program connects and asks to be told, a connection is asked for -/
theorem C256_dialed_partial {c : Ch} (h : Reach Polite c) (a : Nat) :
    (c.addr = some a → Polite c .interest → (exec c .interest).dials = [a]) ∧
    (c.sel = true → Polite c (.connect a) → (exec c (.connect a)).dials = [a]) := by
  have hi := cinv h
  refine ⟨?_, ?_⟩
  · intro ha hg
    simp [exec, ha, Ch.startDial, hg.1]
  · intro hs hg
    have hd : c.dials = [] := by
      cases hd : c.dials with
      | nil => rfl
      | cons b r => exact absurd hg.2 (hi.adr (by rw [hd]; simp))
    simp [exec, hg.1, hs, Ch.startDial, hd]

/-- **C256**: a connection that was made is taken by `finishConnect`, and closing a connected channel closes it -/
theorem C256_finish_partial {c : Ch} (h : Reach Polite c) (hg : Polite c .finish) (hm : c.made ≠ []) :
    (exec c .finish).connected = true ∧ (exec c .finish).results = true :: c.results ∧
    ∃ x, (exec c .finish).conn = some x ∧ (exec (exec c .finish) .close).closed = x :: c.closed := by
  have hi := cinv h
  have hsc : c.sockConn = none := by
    cases hx : c.sockConn with
    | none => rfl
    | some x => have := hi.sck (by rw [hx]; simp); rw [hg.2] at this; cases this
  cases hmm : c.made with
  | nil => exact absurd hmm hm
  | cons p r =>
    obtain ⟨x, b⟩ := p
    have : exec c .finish = { c with made := r, conn := some x, sockConn := some x, connected := true, results := true :: c.results } := by
      simp [exec, hmm, hg.1, hsc]
    rw [this]
    exact ⟨rfl, rfl, x, rfl, rfl⟩

/-- **C256** is false of the code: a program that opens a channel and connects it fails with a null pointer -/
theorem C256_socket_false (a : Nat) : (run {} [.connect a]).npe = true := rfl

/-- **C256** is false of the code: a second `finishConnect`, which should return true, returns false and makes a connected channel lose its connection: nothing can be
read or written any more and closing the channel does not close the connection -/
theorem C256_twice_false : ∃ c, Reach (fun c a => a = .finish ∨ Polite c a) c ∧ c.connected = true ∧ c.conn = none ∧ c.results = [false, true] ∧
    (exec c .close).closed = [] := by
  refine ⟨run {} [.socket, .connect 5, .interest, .dialOk, .finish, .finish], ?_, rfl, rfl, rfl, rfl⟩
  have h0 : Reach (fun c a => a = .finish ∨ Polite c a) {} := .init
  have h1 := Reach.step (a := .socket) h0 (Or.inr trivial)
  have h2 := Reach.step (a := .connect 5) h1 (Or.inr ⟨rfl, rfl⟩)
  have h3 := Reach.step (a := .interest) h2 (Or.inr ⟨rfl, rfl⟩)
  have h4 := Reach.step (a := .dialOk) h3 (Or.inr trivial)
  have h5 := Reach.step (a := .finish) h4 (Or.inl rfl)
  exact Reach.step (a := .finish) h5 (Or.inl rfl)

/-- **C256** is false of the code: changing the interest set while it still asks to be told about the connection opens another connection, which is never closed -/
theorem C256_again_false : (run {} [.socket, .connect 5, .interest, .interest, .dialOk, .dialOk, .finish, .close]).dials = [5, 5] ∧
    (run {} [.socket, .connect 5, .interest, .interest, .dialOk, .dialOk, .finish, .close]).made = [(1, 5)] ∧
    (run {} [.socket, .connect 5, .interest, .interest, .dialOk, .dialOk, .finish, .close]).closed = [0] := ⟨rfl, rfl, rfl⟩

/-- **C256** is false of the code: a connection that cannot be made is never reported: however often it is called, `finishConnect` returns false -/
theorem C256_failed_false (n : Nat) : (run (run {} [.socket, .connect 5, .interest, .dialFail]) (List.replicate n .finish)).results = List.replicate n false ∧
    (run (run {} [.socket, .connect 5, .interest, .dialFail]) (List.replicate n .finish)).npe = false := by
  have h : ∀ (n : Nat) (c : Ch), c.made = [] → (run c (List.replicate n .finish)).results = List.replicate n false ++ c.results ∧
      (run c (List.replicate n .finish)).npe = c.npe := by
    intro n
    induction n with
    | zero => intro c _; exact ⟨rfl, rfl⟩
    | succ n ih =>
      intro c hc
      rw [List.replicate_succ, show run c (.finish :: List.replicate n .finish) = run (exec c .finish) (List.replicate n .finish) from rfl]
      have he : exec c .finish = { c with conn := none, results := false :: c.results } := by simp [exec, hc]
      obtain ⟨i1, i2⟩ := ih (exec c .finish) (by rw [he]; exact hc)
      rw [i1, i2, he]
      refine ⟨?_, rfl⟩
      show List.replicate n false ++ (false :: c.results) = List.replicate (n + 1) false ++ c.results
      rw [show List.replicate (n + 1) false = List.replicate n false ++ [false] by rw [List.replicate_succ'], List.append_assoc]
      rfl
  have := h n (run {} [.socket, .connect 5, .interest, .dialFail]) rfl
  simpa [run, exec, Ch.startDial] using this

/-- the hypotheses are met -/
example : (run {} [.socket, .interest, .connect 5, .dialOk, .finish, .close]).conn = some 0 ∧ (run {} [.socket, .interest, .connect 5, .dialOk, .finish, .close]).closed = [0] :=
  ⟨rfl, rfl⟩

end Verif.Exp.JavaSel
