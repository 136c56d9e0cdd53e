import Verif.Kafka.JsonLemmas
import Verif.Kafka.Gen.Names
import Verif.Kafka.Gen.Messages
/-
C146: the JSON text of a message is JSON and says what the message contains.
-/
namespace Verif.Props.Json
open Verif Verif.Kafka Verif.Kafka.Json Verif.Json

/-! ### specification: the value of a message -/

/-- an ASCII text -/
def text (s : String) : Bytes := s.toList.map fun c => UInt8.ofNat c.toNat

/-- a name of the protocol, beginning with a small letter -/
def camel : List Char → List Char
  | [] => []
  | c :: r => c.toLower :: r

/-- binary data are base64 texts -/
def bin : Option Bytes → J
  | none => .null
  | some b => .str (b64 b)

def headersV : Option (List RecordHeader) → J
  | none => .null
  | some hs => .arr (hs.map fun h => .obj [(text "key", .str (slice h.key)), (text "value", bin h.value)])

def recordV (r : BatchRecord) : J :=
  .obj [(text "timestampDelta", .num r.timestampDelta), (text "offsetDelta", .num r.offsetDelta), (text "key", bin r.key), (text "value", bin r.value),
    (text "headers", headersV r.headers)]

def batchV (b : RecordBatch) : J := if !b.isComplete then .null else
  .obj [(text "baseOffset", .num b.baseOffset), (text "batchLength", .num b.batchLength), (text "partitionLeaderEpoch", .num b.partitionLeaderEpoch),
    (text "magic", .num b.magic), (text "crc", .num b.crc), (text "attributes", .num b.attributes), (text "lastOffsetDelta", .num b.lastOffsetDelta),
    (text "baseTimestamp", .num b.baseTimestamp), (text "maxTimestamp", .num b.maxTimestamp), (text "producerId", .num b.producerId),
    (text "producerEpoch", .num b.producerEpoch), (text "baseSequence", .num b.baseSequence),
    (text "records", match b.records with | none => .null | some rs => .arr (rs.map recordV))]

/-- a slice: empty ones may be null -/
def sliceV (emptyNil : Bool) (l : List J) : J := if l.isEmpty && emptyNil then .null else .arr l

def primV (e : Env) : (p : Prim) → p.Val → J
  | .bool, a => .bool a
  | .int _, a => .num a
  | .u16, a => .num (a : Nat)
  | .f64, a => (number (e.fmt a)).getD .null
  | .uuid, a => bin (some a)
  | .str, a => if a.isNil then .null else .str a.value
  | .bytes, a => bin a
  | .records, a => if a.isNil then .null else sliceV e.emptyNil (a.items.map batchV)

def structV {β : Type} (e : Env) (fs : β → List (Bytes × J)) (s : StructVal β) : J := if s.isNil then .null else
  .obj (fs s.fields ++ [(text "unknownTaggedFields", sliceV e.emptyNil (s.unknown.map fun t => .obj [(text "tag", .num t.tag), (text "value", bin (some t.value))]))])

def optV {α : Type} (f : α → J) : Option (List α) → J
  | none => .null
  | some l => .arr (l.map f)

/-- the fields with their names, in order -/
def fieldVs (e : Env) : (s : Sch) → NT → s.Val → List (Bytes × J)
  | .prim _ _ p _ rest, .cons n _ nt, (a, b) => (asc (camel n), primV e p a) :: fieldVs e rest nt b
  | .arr _ _ p rest, .cons n _ nt, (a, b) => (asc (camel n), optV (primV e p) a) :: fieldVs e rest nt b
  | .struct _ _ _ _ sub rest, .cons n snt nt, (a, b) => (asc (camel n), structV e (fieldVs e sub snt) a) :: fieldVs e rest nt b
  | .arrS _ _ _ _ sub rest, .cons n snt nt, (a, b) => (asc (camel n), optV (structV e (fieldVs e sub snt)) a) :: fieldVs e rest nt b
  | _, _, _ => []

/-! ### which messages the claim is about -/

/-- no quote, backslash or control character -/
def Text (b : Bytes) : Prop := ∀ c ∈ b, c ≠ 34 ∧ c ≠ 92 ∧ ¬ c < 32

def primFine (e : Env) : (p : Prim) → p.Val → Prop
  | .str, a => a.isNil = true ∨ Text a.value
  -- not NaN or infinite: the text is a number
  | .f64, a => e.fmt a ≠ [] ∧ (∀ c ∈ e.fmt a, numChar c = true) ∧ number (e.fmt a) ≠ none
  -- no record has a header
  | .records, a => ∀ b ∈ a.items, ∀ r ∈ b.records.getD [], r.headers.getD [] = []
  | _, _ => True

def Fine (e : Env) : (s : Sch) → s.Val → Prop
  | .nil, _ => True
  | .prim _ _ p _ rest, (a, b) => primFine e p a ∧ Fine e rest b
  | .arr _ _ p rest, (a, b) => (∀ x ∈ a.getD [], primFine e p x) ∧ Fine e rest b
  | .struct _ _ _ _ sub rest, (a, b) => Fine e sub a.fields ∧ Fine e rest b
  | .arrS _ _ _ _ sub rest, (a, b) => (∀ x ∈ a.getD [], Fine e sub x.fields) ∧ Fine e rest b

def startsUpper : List Char → Bool
  | c :: _ => c.isUpper
  | [] => false

/-- names made of letters and digits, starting with a capital letter, none of them "Type" -/
def Names : NT → Bool
  | .nil => true
  | .cons n sub rest => (n.all fun c => c.isAlphanum) && startsUpper n && (n != ['T', 'y', 'p', 'e']) && Names sub && Names rest

/-- the names cover the fields -/
def Covers : Sch → NT → Bool
  | .nil, .nil => true
  | .prim _ _ _ _ rest, .cons _ _ nt => Covers rest nt
  | .arr _ _ _ rest, .cons _ _ nt => Covers rest nt
  | .struct _ _ _ _ sub rest, .cons _ snt nt => Covers sub snt && Covers rest nt
  | .arrS _ _ _ _ sub rest, .cons _ snt nt => Covers sub snt && Covers rest nt
  | _, _ => false

/-! ### proofs -/

theorem P_bin (b : Option Bytes) : P (bin b) (b64Text b) := by
  cases b with
  | none => exact P_null
  | some b => exact P_str _ (b64_plain b)

theorem P_slice (e : Env) {js : List J} {ts : List Bytes} (h : All2 P js ts) : P (sliceV e.emptyNil js) (sliceText e ts) := by
  unfold sliceV sliceText
  cases h with
  | nil =>
    cases e.emptyNil
    · exact P_array .nil
    · exact P_null
  | cons a l => simp only [List.isEmpty_cons, Bool.false_and]; exact P_array (.cons a l)

theorem plain_text (b : Bytes) (h : (b.all fun c => c ≠ 34 && c ≠ 92 && !(c < 32)) = true) : Plain b := by
  intro c hc
  have := List.all_eq_true.mp h c hc
  simp at this
  exact ⟨this.1.1, this.1.2, by simpa using this.2⟩

theorem PM_of {k v : Bytes} {j : J} {k' : Bytes} (he : k' = k) (hk : (k.all fun c => c ≠ 34 && c ≠ 92 && !(c < 32)) = true) (hp : P j v) : PM (k', j) (member k v) := by
  subst he
  exact ⟨plain_text _ hk, v, rfl, hp⟩

theorem P_record (e : Env) (r : BatchRecord) (h : r.headers.getD [] = []) : P (recordV r) (recordText e r) := by
  refine P_object (.cons (PM_of (by decide +kernel) (by decide +kernel) (P_int _)) (.cons (PM_of (by decide +kernel) (by decide +kernel) (P_int _))
    (.cons (PM_of (by decide +kernel) (by decide +kernel) (P_bin _)) (.cons (PM_of (by decide +kernel) (by decide +kernel) (P_bin _))
    (.cons (PM_of (by decide +kernel) (by decide +kernel) ?_) .nil)))))
  cases hr : r.headers with
  | none => exact P_null
  | some hs =>
    rw [hr] at h
    have : hs = [] := h
    subst this
    exact P_array .nil

theorem P_batch (e : Env) (b : RecordBatch) (h : ∀ r ∈ b.records.getD [], r.headers.getD [] = []) : P (batchV b) (batchText e b) := by
  unfold batchV batchText
  cases b.isComplete with
  | false => exact P_null
  | true =>
    refine P_object ?_
    show All2 PM _ [_, _, _, _, _, _, _, _, _, _, _, _, _]
    refine .cons ?_ (.cons ?_ (.cons ?_ (.cons ?_ (.cons ?_ (.cons ?_ (.cons ?_ (.cons ?_ (.cons ?_ (.cons ?_ (.cons ?_ (.cons ?_ (.cons ?_ .nil))))))))))))
    case refine_13 =>
      refine PM_of (by decide +kernel) (by decide +kernel) ?_
      cases hr : b.records with
      | none => exact P_null
      | some rs =>
        rw [hr] at h
        exact P_array (All2.map _ _ _ fun r hrs => P_record e r (h r hrs))
    all_goals dsimp only
    all_goals exact PM_of (by decide +kernel) (by decide +kernel) (P_int _)

theorem P_prim (e : Env) (p : Prim) (a : p.Val) (h : primFine e p a) : P (primV e p a) (primText e p a) := by
  cases p with
  | bool => exact P_bool a
  | int k => exact P_int a
  | u16 => exact P_nat a
  | f64 =>
    obtain ⟨h1, h2, h3⟩ := h
    show P ((number (e.fmt a)).getD .null) (e.fmt a)
    cases hn : number (e.fmt a) with
    | none => exact absurd hn h3
    | some j => exact P_number h1 h2 hn
  | uuid => exact P_bin (some a)
  | str =>
    show P (if a.isNil then .null else .str a.value) (strText a)
    unfold strText
    cases hn : a.isNil with
    | true => exact P_null
    | false =>
      have h' : a.isNil = true ∨ Text a.value := h
      rcases h' with h | h
      · rw [hn] at h; cases h
      · exact P_str _ h
  | bytes => exact P_bin a
  | records =>
    show P (if a.isNil then .null else sliceV e.emptyNil (a.items.map batchV)) (batchesText e a)
    unfold batchesText
    cases hn : a.isNil with
    | true => exact P_null
    | false => exact P_slice e (All2.map _ _ _ fun b hb => P_batch e b (h b hb))

theorem P_opt {α : Type} (f : α → J) (g : α → Bytes) (a : Option (List α)) (h : ∀ x ∈ a.getD [], P (f x) (g x)) :
    P (optV f a) (optText g a) := by
  cases a with
  | none => exact P_null
  | some l => exact P_array (All2.map _ _ _ h)

theorem P_struct {β : Type} (e : Env) (fv : β → List (Bytes × J)) (ft : β → List Bytes) (s : StructVal β) (h : All2 PM (fv s.fields) (ft s.fields)) :
    P (structV e fv s) (structText e ft s) := by
  unfold structV structText
  cases s.isNil with
  | true => exact P_null
  | false =>
    refine P_object (All2.append h (.cons (PM_of (by decide +kernel) (by decide +kernel) (P_slice e (All2.map _ _ _ fun t _ => ?_))) .nil))
    exact P_object (.cons (PM_of (by decide +kernel) (by decide +kernel) (P_nat _)) (.cons (PM_of (by decide +kernel) (by decide +kernel) (P_bin (some t.value))) .nil))

/-- letters and digits -/
theorem alnum_plain (c : Char) (h : c.isAlphanum = true) : UInt8.ofNat c.toNat ≠ 34 ∧ UInt8.ofNat c.toNat ≠ 92 ∧ ¬ UInt8.ofNat c.toNat < 32 := by
  have hr : c.toNat < 123 ∧ (48 ≤ c.toNat ∧ c.toNat ≠ 92) := by
    simp only [Char.isAlphanum, Char.isAlpha, Char.isUpper, Char.isLower, Char.isDigit, Bool.or_eq_true, Bool.and_eq_true, decide_eq_true_eq] at h
    show c.val.toNat < 123 ∧ (48 ≤ c.val.toNat ∧ c.val.toNat ≠ 92)
    have l : ∀ a b : UInt32, a ≤ b → a.toNat ≤ b.toNat := fun a b h => h
    rcases h with (⟨h1, h2⟩ | ⟨h1, h2⟩) | ⟨h1, h2⟩ <;> (have := l _ _ h1; have := l _ _ h2; simp at *; omega)
  have all : ∀ n, n < 123 → 48 ≤ n ∧ n ≠ 92 → UInt8.ofNat n ≠ 34 ∧ UInt8.ofNat n ≠ 92 ∧ ¬ UInt8.ofNat n < 32 := by decide
  exact all _ hr.1 hr.2

theorem key_eq (n : List Char) (h1 : (n.all fun c => c.isAlphanum) = true) (h2 : startsUpper n = true) (h3 : n ≠ ['T', 'y', 'p', 'e']) :
    asc (camel n) = keyOf n ∧ Plain (asc (camel n)) := by
  cases n with
  | nil => cases h2
  | cons c r =>
    have hc : c.isUpper = true := h2
    have hu : 65 ≤ c.toNat ∧ c.toNat ≤ 90 := by
      simp only [Char.isUpper, Bool.and_eq_true, decide_eq_true_eq] at hc
      have l : ∀ a b : UInt32, a ≤ b → a.toNat ≤ b.toNat := fun a b h => h
      have a := l _ _ hc.1
      have b := l _ _ hc.2
      simp at a b
      exact ⟨a, b⟩
    have low : c.toLower = Char.ofNat (c.toNat + 32) := by
      have : c = Char.ofNat c.toNat := by simp
      rw [this]
      have all : ∀ n, n ≤ 90 → 65 ≤ n → (Char.ofNat n).toLower = Char.ofNat ((Char.ofNat n).toNat + 32) := by decide
      exact all _ hu.2 hu.1
    have hrange : ('A' ≤ c ∧ c ≤ 'Z') := by
      constructor
      · show (65 : UInt32).toNat ≤ c.val.toNat; exact hu.1
      · show c.val.toNat ≤ (90 : UInt32).toNat; exact hu.2
    have hnt : Char.ofNat (c.toNat + 32) :: r ≠ ['t', 'y', 'p', 'e'] := by
      intro e
      injection e with e1 e2
      have all : ∀ n, n ≤ 90 → 65 ≤ n → Char.ofNat (n + 32) = 't' → Char.ofNat n = 'T' := by decide
      have : c = 'T' := by rw [← all _ hu.2 hu.1 e1]; simp
      exact h3 (by rw [this, e2])
    constructor
    · unfold keyOf camel
      simp only [hrange, and_self, if_true, low]
      rw [if_neg hnt]
    · intro x hx
      simp only [camel, asc, List.map_cons, List.mem_cons, List.mem_map] at hx
      rcases hx with rfl | ⟨d, hd, rfl⟩
      · rw [low]
        have all : ∀ n, n ≤ 90 → 65 ≤ n → UInt8.ofNat (Char.ofNat (n + 32)).toNat ≠ 34 ∧ UInt8.ofNat (Char.ofNat (n + 32)).toNat ≠ 92 ∧
            ¬ UInt8.ofNat (Char.ofNat (n + 32)).toNat < 32 := by decide
        exact all _ hu.2 hu.1
      · exact alnum_plain d (List.all_eq_true.mp h1 d (by simp [hd]))

theorem names_cons {n : List Char} {sub rest : NT} (h : Names (.cons n sub rest) = true) :
    (asc (camel n) = keyOf n ∧ Plain (asc (camel n))) ∧ Names sub = true ∧ Names rest = true := by
  simp only [Names, Bool.and_eq_true, bne_iff_ne] at h
  exact ⟨key_eq n h.1.1.1.1 h.1.1.1.2 h.1.1.2, h.1.2, h.2⟩

theorem P_fields (e : Env) : ∀ (s : Sch) (nt : NT) (a : s.Val), Names nt = true → Covers s nt = true → Fine e s a → All2 PM (fieldVs e s nt a) (fieldTexts e s nt a) := by
  intro s
  induction s with
  | nil => intro nt a _ hc _; cases nt <;> exact .nil
  | prim c ig p d rest ih =>
    intro nt a hn hc hf
    cases nt with
    | nil => cases hc
    | cons n sub nt =>
      obtain ⟨⟨k1, k2⟩, _, n2⟩ := names_cons hn
      obtain ⟨a, b⟩ := a
      refine .cons ⟨k2, _, ?_, P_prim e p a hf.1⟩ (ih nt b n2 hc hf.2)
      rw [k1]
  | arr c ig p rest ih =>
    intro nt a hn hc hf
    cases nt with
    | nil => cases hc
    | cons n sub nt =>
      obtain ⟨⟨k1, k2⟩, _, n2⟩ := names_cons hn
      obtain ⟨a, b⟩ := a
      refine .cons ⟨k2, _, ?_, P_opt _ (primText e p) a fun x hx => P_prim e p x (hf.1 x hx)⟩ (ih nt b n2 hc hf.2)
      rw [k1]
  | struct c ig flo fhi sub rest ihs ih =>
    intro nt a hn hc hf
    cases nt with
    | nil => cases hc
    | cons n snt nt =>
      obtain ⟨⟨k1, k2⟩, n1, n2⟩ := names_cons hn
      obtain ⟨a, b⟩ := a
      have hc' := Bool.and_eq_true .. |>.mp hc
      refine .cons ⟨k2, _, ?_, P_struct e _ (fieldTexts e sub snt) a (ihs snt a.fields n1 hc'.1 hf.1)⟩ (ih nt b n2 hc'.2 hf.2)
      rw [k1]
  | arrS c ig flo fhi sub rest ihs ih =>
    intro nt a hn hc hf
    cases nt with
    | nil => cases hc
    | cons n snt nt =>
      obtain ⟨⟨k1, k2⟩, n1, n2⟩ := names_cons hn
      obtain ⟨a, b⟩ := a
      have hc' := Bool.and_eq_true .. |>.mp hc
      refine .cons ⟨k2, _, ?_, P_opt _ (structText e (fieldTexts e sub snt)) a fun x hx => P_struct e _ _ x (ihs snt x.fields n1 hc'.1 (hf.1 x hx))⟩ (ih nt b n2 hc'.2 hf.2)
      rw [k1]

/-- C146 (partial): the JSON text of a message is JSON, and its value lists the fields of the message under their names with their values, if the strings need no
escaping, the floats are numbers, no record has headers and no field is called "Type". -/
theorem C146_value_partial (e : Env) (m : Msg) (nt : NT) (s : m.Val) (hn : Names nt = true) (hc : Covers m.fields nt = true) (hf : Fine e m.fields s.fields) :
    parse (msgText e m nt s) = some (structV e (fieldVs e m.fields nt) s) :=
  parse_of_P (P_struct e _ _ s (P_fields e m.fields nt s.fields hn hc hf))

/-- C146 (partial): binary data can be read back from their texts. -/
theorem C146_binary_partial (b : Bytes) : unb64 (b64 b) = some b := unb64_b64 b

/-- C146 (partial): the same for the batches of records by themselves. -/
theorem C146_batch_partial (e : Env) (b : RecordBatch) (h : ∀ r ∈ b.records.getD [], r.headers.getD [] = []) : parse (batchText e b) = some (batchV b) :=
  parse_of_P (P_batch e b h)

/-! ### the shipped messages -/

/-- the keys of an object and of all objects inside are distinct -/
def distinctKeys : List Bytes → NT → Bool
  | seen, .nil => !seen.contains (text "unknownTaggedFields")
  | seen, .cons n sub rest => !seen.contains (keyOf n) && distinctKeys [] sub && distinctKeys (keyOf n :: seen) rest

/-- C146 (partial): every shipped request and response has names for its fields, and no object has two members of the same name; all but one
(LeaderAndIsrRequest, which has a field called "Type") satisfy the conditions on names. -/
theorem C146_messages_partial :
    (∀ p ∈ Gen.requests.zip Gen.requestNames, Covers p.1.msg.fields p.2 = true ∧ distinctKeys [] p.2 = true) ∧
    (∀ p ∈ Gen.responses.zip Gen.responseNames, Covers p.1.msg.fields p.2 = true ∧ distinctKeys [] p.2 = true ∧ Names p.2 = true) ∧
    Gen.requests.length = Gen.requestNames.length ∧ Gen.responses.length = Gen.responseNames.length ∧
    (Gen.requestNames.filter fun n => !Names n).length = 1 := by decide +kernel

def env0 : Env := ⟨fun n => if n = 0x7ff8000000000001 then asc ['N', 'a', 'N'] else [48], true, 0⟩

/-- a message with a string and a number -/
def msg0 : Msg := ⟨3, 32767, .prim { lo := 0, hi := 32767, flo := 3, fhi := 32767, nlo := 0, nhi := 0 } false .str .none
  (.prim { lo := 0, hi := 32767, flo := 3, fhi := 32767, nlo := 0, nhi := 0 } false (.int 4) .none .nil)⟩
def names0 : NT := .cons ['N', 'a', 'm', 'e'] .nil (.cons ['S', 'i', 'z', 'e'] .nil .nil)
def val0 (s : Bytes) : msg0.Val := ⟨false, (⟨s, false⟩, (-12 : Int), ()), [⟨3, [1, 2]⟩]⟩

example : Names names0 = true ∧ Covers msg0.fields names0 = true ∧ Fine env0 msg0.fields (val0 (text "abc")).fields ∧
    msgText env0 msg0 names0 (val0 (text "abc")) = text "{\"name\": \"abc\", \"size\": -12, \"unknownTaggedFields\": [{\"tag\": 3, \"value\": \"AQI=\"}]}" := by
  refine ⟨by decide +kernel, by decide +kernel, ⟨Or.inr ?_, trivial, trivial⟩, by decide +kernel⟩
  show Text (text "abc")
  unfold Text
  decide +kernel

/-- the names of the members of a JSON text -/
def keys (t : Bytes) : List Bytes := match parse t with
  | some (.obj l) => l.map (·.1)
  | _ => []

/-- Known defect (C146): strings are not escaped: a string with a quote makes the text invalid, or adds members that are not there. -/
theorem C146_escape_false : (parse (msgText env0 msg0 names0 (val0 (text "a\"b")))).isNone = true ∧
    keys (msgText env0 msg0 names0 (val0 (text "a\", \"admin\": \"b"))) = [text "name", text "admin", text "size", text "unknownTaggedFields"] := by
  decide +kernel

/-- Known defect (C146): the text of a record header is never JSON: its two parts share a buffer, and the second overwrites the first. -/
theorem C146_header_false (e : Env) (h : RecordHeader) : (parse (headerText e h)).isNone = true := by
  have key : ∃ r, headerText e h = 34 :: (kValue ++ 34 :: 58 :: r) := by
    have hl : 10 ≤ (headerFirst h).length := by simp [headerFirst, member, quoted, kKey, asc]
    have main : ∀ (p : Bytes) (w : Bytes), (∃ q, w = 34 :: (kValue ++ 34 :: 58 :: q)) → ∀ n, 10 ≤ n → ∀ l, ∃ r, joinC [(w ++ p).take n, l] = 34 :: (kValue ++ 34 :: 58 :: r) := by
      intro p w ⟨q, hq⟩ n hn l
      obtain ⟨k, rfl⟩ : ∃ k, n = k + 8 := ⟨n - 8, by omega⟩
      refine ⟨(q ++ p).take k ++ 44 :: 32 :: l, ?_⟩
      rw [hq]
      simp [joinC, kValue, asc]
    have ex : ∀ w q : Bytes, w = 34 :: (kValue ++ 34 :: 58 :: q) → ∃ q, w = 34 :: (kValue ++ 34 :: 58 :: q) := fun _ q h => ⟨q, h⟩
    apply main
    · cases hv : h.value with
      | none =>
        simp only [headerPieces, hv, intoArray]
        rw [if_pos (by simp [member, quoted, kValue, asc, null]; omega)]
        exact ⟨32 :: (null ++ [125]), by simp [member, quoted]⟩
      | some v =>
        simp only [headerPieces, hv, intoArray]
        rw [if_pos (by simp [quoted, kValue, asc]; omega)]
        exact ex _ _ (by simp only [quoted, List.cons_append, List.append_assoc, List.nil_append]; rfl)
    · exact hl
  obtain ⟨r, hr⟩ := key
  rw [hr]
  unfold parse
  have hb : strBody (kValue ++ 34 :: 58 :: r) = some (kValue, 58 :: r) := strBody_plain _ (plain_text _ (by decide +kernel)) _
  have hv : value ((34 :: (kValue ++ 34 :: 58 :: r)).length + 1) (34 :: (kValue ++ 34 :: 58 :: r)) = some (.str kValue, 58 :: r) := by
    simp only [value]
    rw [skip_cons (by rfl)]
    simp only [if_true, hb, Option.map_some]
  rw [hv]
  simp only []
  rw [skip_cons (by rfl)]
  rfl

/-- so is the text of a record with a header -/
theorem C146_record_false : (parse (recordText env0 { headers := some [⟨some [97], some [98]⟩] })).isNone = true := by decide +kernel

/-- Known defect (C146): NaN gives no JSON, and a field called "Type" appears as "_type". -/
theorem C146_nan_false : (parse (object [member (text "value") (primText env0 .f64 (0x7ff8000000000001 : Nat))])).isNone = true ∧
    keyOf ['T', 'y', 'p', 'e'] = text "_type" := by decide +kernel

end Verif.Props.Json
