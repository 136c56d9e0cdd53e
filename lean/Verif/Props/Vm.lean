import Verif.Wasm.Vm
/-
Property theorems C126 (which configurations share a VM), C127 (concurrent creation), C128 (closing a VM closes its users), C129 (sources
of code).
-/
namespace Verif.Props.Vm
open Verif.Heimdall Verif.Wasm.Vm

/-! ### C126 -/

/-- what decides about sharing -/
def Same (c d : Cfg) : Prop := c.id = d.id ∧ c.code = d.code ∧ c.json = d.json

theorem key_inj (sha : Bytes → Str) (hlen : ∀ b, (sha b).length = 64) (hinj : ∀ a b, sha a = sha b → a = b) (c d : Cfg) :
    vmKey sha c = vmKey sha d ↔ (if c.id = [] then noId else c.id) = (if d.id = [] then noId else d.id) ∧ c.code = d.code ∧ c.json = d.json := by
  constructor
  · intro h
    unfold vmKey at h
    have h1 := List.append_inj' h (by simp [hlen])
    obtain ⟨h2, h3⟩ := h1
    injection h3 with _ h3
    have h4 := List.append_inj' h2 (by simp [hlen])
    injection h4.2 with _ h5
    exact ⟨h4.1, hinj _ _ h5, hinj _ _ h3⟩
  · rintro ⟨h1, h2, h3⟩
    unfold vmKey
    rw [h1, h2, h3]

section
variable {sha : Bytes → Str} {known : List Str}

/-- calls one after the other: none begins before all others have ended -/
def Seq : Store → Act → Prop
  | s, .call _ => s.pending = []
  | _, .create _ => True

def Inv (sha : Bytes → Str) (s : Store) : Prop :=
  (∀ c v, ⟨c, some v⟩ ∈ s.log → s.find (vmKey sha c) = some v) ∧
  (∀ k l v, s.find k = some v → s.find l = some v → k = l) ∧
  (∀ k v, s.find k = some v → v < s.created.length) ∧
  (∀ c ∈ s.pending, s.find (vmKey sha c) = none ∧ s.pending = [c]) ∧
  (∀ k v, s.find k = some v → ∃ c, ⟨c, some v⟩ ∈ s.log ∧ vmKey sha c = k ∧ s.created[v]? = some c.runtime)

theorem find_cons (s : Store) (k l : Str) (n : Nat) (cr : List Str) (p : List Cfg) (lg : List Ret) :
    Store.find ⟨(k, n) :: s.vms, cr, p, lg⟩ l = if k = l then some n else s.find l := by
  unfold Store.find
  by_cases h : k = l
  · rw [List.find?_cons_of_pos (by simpa using h), if_pos h]; rfl
  · rw [List.find?_cons_of_neg (by simpa using h), if_neg h]

theorem inv_exec {s s' : Store} {a : Act} (h : Inv sha s) (hg : Seq s a) (he : exec sha known s a = some s') : Inv sha s' := by
  obtain ⟨h1, h2, h3, h4, h5⟩ := h
  cases a with
  | call c =>
    rw [exec] at he
    cases hf : s.find (vmKey sha c) with
    | some v =>
      rw [hf] at he
      injection he with he; subst he
      refine ⟨?_, h2, h3, h4, ?_⟩
      · intro d w hd
        rcases List.mem_cons.mp hd with hd | hd
        · injection hd with e1 e2; injection e2 with e2; subst e1; subst e2; exact hf
        · exact h1 d w hd
      · intro k w hk
        obtain ⟨d, hd, hk', hr⟩ := h5 k w hk
        exact ⟨d, List.mem_cons_of_mem _ hd, hk', hr⟩
    | none =>
      rw [hf] at he
      injection he with he; subst he
      refine ⟨h1, h2, h3, ?_, h5⟩
      have hp : s.pending = [] := hg
      simp only [hp, List.nil_append]
      intro d hd
      have : d = c := by simpa using hd
      subst this
      exact ⟨hf, rfl⟩
  | create i =>
    rw [exec] at he
    cases hp : s.pending[i]? with
    | none => rw [hp] at he; cases he
    | some c =>
      rw [hp] at he
      simp only at he
      have hm : c ∈ s.pending := List.mem_of_getElem? hp
      obtain ⟨hn, hs⟩ := h4 c hm
      have hempty : s.pending.eraseIdx i = [] := by
        rw [hs] at hp ⊢
        cases i with
        | zero => rfl
        | succ n => simp at hp
      by_cases hr : c.runtime = [] ∨ c.runtime ∉ known
      · rw [if_pos hr] at he
        injection he with he; subst he
        refine ⟨?_, h2, h3, ?_, ?_⟩
        · intro d w hd
          rcases List.mem_cons.mp hd with hd | hd
          · injection hd with _ e; cases e
          · exact h1 d w hd
        · simp only [hempty]; intro d hd; cases hd
        · intro k w hk
          obtain ⟨d, hd, hk', hr⟩ := h5 k w hk
          exact ⟨d, List.mem_cons_of_mem _ hd, hk', hr⟩
      · rw [if_neg hr] at he
        injection he with he; subst he
        refine ⟨?_, ?_, ?_, ?_, ?_⟩
        · intro d w hd
          rw [find_cons]
          rcases List.mem_cons.mp hd with hd | hd
          · injection hd with e1 e2; injection e2 with e2; subst e1; subst e2
            rw [if_pos rfl]
          · have := h1 d w hd
            rw [if_neg, this]
            intro hk; rw [hk] at hn; rw [hn] at this; cases this
        · intro k l v hk hl
          rw [find_cons] at hk hl
          by_cases ek : vmKey sha c = k
          · by_cases el : vmKey sha c = l
            · rw [← ek, ← el]
            · rw [if_pos ek] at hk; rw [if_neg el] at hl
              injection hk with hk
              have := h3 l v hl
              omega
          · by_cases el : vmKey sha c = l
            · rw [if_neg ek] at hk; rw [if_pos el] at hl
              injection hl with hl
              have := h3 k v hk
              omega
            · rw [if_neg ek] at hk; rw [if_neg el] at hl
              exact h2 k l v hk hl
        · intro k v hk
          rw [find_cons] at hk
          simp only [List.length_append, List.length_singleton]
          by_cases ek : vmKey sha c = k
          · rw [if_pos ek] at hk; injection hk with hk; omega
          · rw [if_neg ek] at hk; have := h3 k v hk; omega
        · simp only [hempty]; intro d hd; cases hd
        · intro k v hk
          rw [find_cons] at hk
          by_cases ek : vmKey sha c = k
          · rw [if_pos ek] at hk; injection hk with hk; subst hk
            exact ⟨c, List.mem_cons_self, ek, by simp⟩
          · rw [if_neg ek] at hk
            obtain ⟨d, hd, hk', hr⟩ := h5 k v hk
            refine ⟨d, List.mem_cons_of_mem _ hd, hk', ?_⟩
            rw [List.getElem?_append_left (h3 k v hk), hr]

theorem inv_reach {s : Store} (h : Reach sha known Seq s) : Inv sha s := by
  induction h with
  | init => exact ⟨(by intro c v h; cases h), (by intro k l v h; cases h), (by intro k v h; cases h), (by intro c h; cases h), (by intro k v h; cases h)⟩
  | step _ hg he ih => exact inv_exec ih hg he

/-- **C126** For every sequence of calls, two calls with ids given get the same VM exactly if their ids, codes and configurations are the
same (SHA-256 is taken to be injective). -/
theorem C126_sharing (hlen : ∀ b, (sha b).length = 64) (hinj : ∀ a b, sha a = sha b → a = b) (s : Store) (h : Reach sha known Seq s)
    (c d : Cfg) (v w : Nat) (hc : ⟨c, some v⟩ ∈ s.log) (hd : ⟨d, some w⟩ ∈ s.log) (hci : c.id ≠ []) (hdi : d.id ≠ []) :
    v = w ↔ Same c d := by
  obtain ⟨h1, h2, -⟩ := inv_reach h
  have hc := h1 c v hc
  have hd := h1 d w hd
  have key := key_inj sha hlen hinj c d
  rw [if_neg hci, if_neg hdi] at key
  constructor
  · rintro rfl
    exact key.mp (h2 _ _ _ hc hd)
  · intro hs
    rw [key.mpr hs, hd] at hc
    injection hc with hc; exact hc.symm

/-- **C126** Every VM handed out runs in the runtime that the configuration asked for with which it was created. -/
theorem C126_runtime (s : Store) (h : Reach sha known Seq s) (c : Cfg) (v : Nat) (hc : ⟨c, some v⟩ ∈ s.log) :
    ∃ d, ⟨d, some v⟩ ∈ s.log ∧ vmKey sha d = vmKey sha c ∧ s.created[v]? = some d.runtime := by
  obtain ⟨h1, -, -, -, h5⟩ := inv_reach h
  exact h5 _ _ (h1 c v hc)

end

/-- a small stand-in for SHA-256, for examples -/
def toy (b : Bytes) : Str := b.map (fun x => if x = 1 then 'a' else 'b') ++ List.replicate (64 - b.length) 'x'

def c1 : Cfg := ⟨"a".toList, "wazero".toList, [1], []⟩
def c2 : Cfg := ⟨"b".toList, "wazero".toList, [1], []⟩

def run (known : List Str) (s : Store) : List Act → Option Store
  | [] => some s
  | a :: l => (exec toy known s a).bind fun s => run known s l

/-- three calls in sequence, the first and the third share -/
example : (run ["wazero".toList] {} [.call c1, .create 0, .call c2, .create 0, .call c1]).map (·.log.map (·.vm)) = some [some 0, some 1, some 0] := by
  decide +kernel

/-! ### C127 -/

/-- **C127** (partial) A call that finds no VM creates one exactly if its runtime is given and known; otherwise it fails and changes
nothing. -/
theorem C127_errors_partial (sha : Bytes → Str) (known : List Str) (s s' : Store) (i : Nat) (c : Cfg) (hc : s.pending[i]? = some c)
    (he : exec sha known s (.create i) = some s') :
    (c.runtime ≠ [] ∧ c.runtime ∈ known ∧ s'.log = ⟨c, some s.created.length⟩ :: s.log ∧ s'.created = s.created ++ [c.runtime]) ∨
    ((c.runtime = [] ∨ c.runtime ∉ known) ∧ s'.log = ⟨c, none⟩ :: s.log ∧ s'.vms = s.vms ∧ s'.created = s.created) := by
  rw [exec, hc] at he
  simp only at he
  by_cases hr : c.runtime = [] ∨ c.runtime ∉ known
  · rw [if_pos hr] at he; injection he with he; subst he; exact .inr ⟨hr, rfl, rfl, rfl⟩
  · rw [if_neg hr] at he; injection he with he; subst he
    rw [not_or, Decidable.not_not] at hr
    exact .inl ⟨hr.1, hr.2, rfl, rfl⟩

/-- **C127** fails: two calls at the same time with one configuration get two VMs. -/
theorem C127_race_false : (run ["wazero".toList] {} [.call c1, .call c1, .create 0, .create 0]).map (·.log.map (·.vm)) = some [some 1, some 0] := by
  decide +kernel

/-- **C127** fails: a configuration for another runtime, an unknown one, or none gets the VM of whatever runtime came first; and no id is
the same as the id `vm-id-not-specified`. -/
theorem C127_runtime_false :
    (run ["wazero".toList, "wasmer".toList] {} [.call c1, .create 0, .call { c1 with runtime := "wasmer".toList }, .call { c1 with runtime := "nope".toList },
      .call { c1 with runtime := [] }]).map (·.log.map (·.vm)) = some [some 0, some 0, some 0, some 0] ∧
    (∀ (sha : Bytes → Str) (c : Cfg), vmKey sha { c with id := [] } = vmKey sha { c with id := noId }) := by
  refine ⟨by decide +kernel, ?_⟩
  intro sha c
  unfold vmKey
  simp only [if_true]
  rw [if_neg (by decide +kernel)]

/-! ### C128 -/

/-- the users a VM has according to a history of calls that have ended: those that acquired it and did not release it since -/
def holds (u : Nat) : List UAct → Bool
  | [] => false
  | .acquireIn v :: l => u = v || holds u l
  | .releaseIn v :: l => u ≠ v && holds u l
  | _ :: l => holds u l

/-- runs with their history, newest first -/
inductive URun (g : Users → UAct → Prop) : List UAct → Users → Prop where
  | init : URun g [] {}
  | step {l s s' a} : URun g l s → g s a → uexec s a = some s' → URun g (a :: l) s'

def NoClose : Users → UAct → Prop := fun _ a => a ≠ .close

theorem users_hist {l : List UAct} {s : Users} (h : URun NoClose l s) :
    s.closing = false ∧ s.closed = [] ∧ s.users.Nodup ∧ s.refCount = s.users.length ∧ ∀ u, u ∈ s.users ↔ holds u l = true := by
  induction h with
  | init => exact ⟨rfl, rfl, List.nodup_nil, rfl, by intro u; simp [holds]⟩
  | @step l s s' a hr hg he ih =>
    obtain ⟨h1, h2, h3, h4, h5⟩ := ih
    cases a with
    | acquire u =>
      rw [uexec, h1, if_neg (by simp)] at he
      injection he with he; subst he
      exact ⟨rfl, h2, h3, h4, h5⟩
    | release u =>
      rw [uexec, h1, if_neg (by simp)] at he
      injection he with he; subst he
      exact ⟨rfl, h2, h3, h4, h5⟩
    | close => exact absurd rfl hg
    | acquireIn u =>
      rw [uexec] at he
      by_cases hm : u ∈ s.acq
      · rw [if_pos hm] at he
        by_cases hu : u ∈ s.users
        · rw [if_pos hu] at he
          injection he with he; subst he
          refine ⟨h1, h2, h3, h4, ?_⟩
          intro v
          rw [holds]
          by_cases hv : v = u
          · subst hv; simp [hu]
          · simp [hv, h5 v]
        · rw [if_neg hu] at he
          injection he with he; subst he
          refine ⟨h1, h2, List.nodup_cons.mpr ⟨hu, h3⟩, by simp [h4], ?_⟩
          intro v
          rw [holds, List.mem_cons, h5 v]
          by_cases hv : v = u <;> simp [hv]
      · rw [if_neg hm] at he; cases he
    | releaseIn u =>
      rw [uexec] at he
      by_cases hm : u ∈ s.rel
      · rw [if_pos hm] at he
        by_cases hu : u ∈ s.users
        · rw [if_pos hu] at he
          injection he with he; subst he
          refine ⟨h1, h2, h3.erase u, ?_, ?_⟩
          · show s.refCount - 1 = (s.users.erase u).length
            rw [List.length_erase_of_mem hu, h4]
          · intro v
            rw [holds, h3.mem_erase_iff, h5 v]
            by_cases hv : v = u <;> simp [hv]
        · rw [if_neg hu] at he
          injection he with he; subst he
          refine ⟨h1, h2, h3, h4, ?_⟩
          intro v
          rw [holds, h5 v]
          by_cases hv : v = u
          · subst hv
            have : holds v l = false := by
              cases hh : holds v l with
              | false => rfl
              | true => exact absurd ((h5 v).mpr hh) hu
            simp [this]
          · simp [hv]
      · rw [if_neg hm] at he; cases he

/-- **C128** For every interleaving of `Acquire` and `Release`, the first `Close` closes exactly the users that have acquired the
VM and not released it since, each once. -/
theorem C128_close (l : List UAct) (s s' : Users) (h : URun NoClose l s) (he : uexec s .close = some s') :
    s'.closed.Nodup ∧ (∀ u, u ∈ s'.closed ↔ holds u l = true) ∧ s'.users = [] ∧ s'.refCount = 0 := by
  obtain ⟨-, h2, h3, h4, h5⟩ := users_hist h
  rw [uexec] at he
  injection he with he; subst he
  simp only [h2, List.append_nil]
  exact ⟨h3, h5, trivial, by omega⟩

/-- **C211** (partial) A VM that is closed, with no call of `Acquire` under way, takes no more users and closes nobody again. -/
theorem C211_after_partial (s s' : Users) (hc : s.closing = true) (hu : s.users = []) (ha : s.acq = []) (a : UAct) (he : uexec s a = some s') :
    s'.closing = true ∧ s'.users = [] ∧ s'.acq = [] ∧ s'.closed = s.closed := by
  cases a with
  | acquire u => rw [uexec, if_pos hc] at he; injection he with he; subst he; exact ⟨hc, hu, ha, rfl⟩
  | acquireIn u => rw [uexec, if_neg (by rw [ha]; simp)] at he; cases he
  | release u => rw [uexec, if_pos hc] at he; injection he with he; subst he; exact ⟨hc, hu, ha, rfl⟩
  | releaseIn u =>
    rw [uexec] at he
    split at he
    · rw [if_neg (by rw [hu]; simp)] at he; injection he with he; subst he; exact ⟨hc, hu, ha, rfl⟩
    · cases he
  | close => rw [uexec] at he; injection he with he; subst he; exact ⟨rfl, rfl, ha, by simp [hu]⟩

def urun (s : Users) : List UAct → Option Users
  | [] => some s
  | a :: l => (uexec s a).bind fun s => urun s l

/-- **C211** fails: a user that acquires the VM while it is being closed is added to a closed VM and never closed, and one that acquires it
afterwards is not told that it did not get it. -/
theorem C211_race_false :
    (urun {} [.acquire 1, .close, .acquireIn 1]).map (fun s => (s.closing, s.users, s.closed)) = some (true, [1], []) ∧
    (urun {} [.close, .acquire 2]).map (fun s => (s.closing, s.users, s.closed)) = some (true, [], []) := ⟨rfl, rfl⟩

example : (urun {} [.acquire 1, .acquireIn 1, .acquire 2, .acquireIn 2, .release 1, .releaseIn 1, .close]).map (·.closed) = some [2] := rfl

/-! ### C129 -/

theorem gets_cached (b : Bytes) : ∀ fs : List Fetch, urlGets (some b) fs = List.replicate fs.length (some b, false)
  | [] => rfl
  | _ :: fs => by rw [urlGets, List.length_cons, List.replicate_succ, urlGet, gets_cached b fs]

/-- **C129** A URL is asked until a response has been read to its end; all later calls return exactly this response and ask no
more. -/
theorem C129_once (fs : List Fetch) :
    ((∀ f ∈ fs, ∀ st b, f ≠ .resp st b true) ∧ urlGets none fs = List.replicate fs.length (none, true)) ∨
    ∃ pre st b post, fs = pre ++ .resp st b true :: post ∧ (∀ f ∈ pre, ∀ st b, f ≠ .resp st b true) ∧
      urlGets none fs = List.replicate pre.length (none, true) ++ (some b, true) :: List.replicate post.length (some b, false) := by
  induction fs with
  | nil => exact .inl ⟨(by intro f hf; cases hf), rfl⟩
  | cons f fs ih =>
    cases f with
    | fail =>
      rcases ih with ⟨h1, h3⟩ | ⟨pre, st, b, post, h1, h2, h3⟩
      · refine .inl ⟨?_, ?_⟩
        · intro f hf st b
          rcases List.mem_cons.mp hf with rfl | hf
          · simp
          · exact h1 f hf st b
        · rw [urlGets, urlGet, h3, List.length_cons, List.replicate_succ]
      · refine .inr ⟨.fail :: pre, st, b, post, by rw [h1]; rfl, ?_, ?_⟩
        · intro f hf st b
          rcases List.mem_cons.mp hf with rfl | hf
          · simp
          · exact h2 f hf st b
        · rw [urlGets, urlGet, h3, List.length_cons, List.replicate_succ]; rfl
    | resp st body whole =>
      cases whole with
      | true =>
        refine .inr ⟨[], st, body, fs, rfl, (by intro f hf; cases hf), ?_⟩
        rw [urlGets, urlGet]
        simp only [if_true]
        rw [gets_cached]; rfl
      | false =>
        have hg : urlGet none (.resp st body false) = (none, none, true) := rfl
        rcases ih with ⟨h1, h3⟩ | ⟨pre, st', b, post, h1, h2, h3⟩
        · refine .inl ⟨?_, ?_⟩
          · intro f hf st b
            rcases List.mem_cons.mp hf with rfl | hf
            · simp
            · exact h1 f hf st b
          · rw [urlGets, hg, h3, List.length_cons, List.replicate_succ]
        · refine .inr ⟨.resp st body false :: pre, st', b, post, by rw [h1]; rfl, ?_, ?_⟩
          · intro f hf st b
            rcases List.mem_cons.mp hf with rfl | hf
            · simp
            · exact h2 f hf st b
          · rw [urlGets, hg, h3, List.length_cons, List.replicate_succ]; rfl

example : urlGets none [.fail, .resp 200 [1] false, .resp 200 [1, 2] true, .fail] = [(none, true), (none, true), (some [1, 2], true), (some [1, 2], false)] := rfl

/-- **C129** Given bytes are returned as they are; a file is returned as it is at the first call that can read it, and the same
for ever. -/
theorem C129_file :
    (∀ b, (newBytes (some b)).read = (newBytes (some b), .bytes b)) ∧
    (∀ fs n b, n ≠ [] → fs n = .content b → ∃ s, (newFile fs n).read = (s, .bytes b) ∧ s.read = (s, .bytes b)) ∧
    (∀ fs n, n ≠ [] → (∀ b, fs n ≠ .content b) → (newFile fs n).read = (newFile fs n, .error)) := by
  refine ⟨fun _ => rfl, ?_, ?_⟩
  · intro fs n b hn hb
    refine ⟨⟨some fs, n, some b⟩, ?_, rfl⟩
    unfold newFile Src.read
    simp only [hb, if_pos hn]
  · intro fs n hn hb
    unfold newFile Src.read
    simp only
    cases hf : fs n with
    | noOpen => rfl
    | noRead => simp only [if_pos hn]
    | content b => exact absurd hf (hb b)

/-- **C212** fails: an error page is taken for the code, for ever; and a source made of no bytes crashes the program. -/
theorem C212_status_false (body : Bytes) (later : List Fetch) :
    urlGets none (.resp 404 body true :: later) = (some body, true) :: List.replicate later.length (some body, false) ∧
    (newBytes none).read.2 = .panic := by
  refine ⟨?_, rfl⟩
  rw [urlGets, urlGet]
  simp only [if_true]
  rw [gets_cached]

end Verif.Props.Vm
